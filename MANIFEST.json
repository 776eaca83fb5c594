{
 "claims": [
  {
   "property": "C01",
   "status": "partial",
   "theorems": [
    "Verif.RingBuf.C01_delivered_exact_partial",
    "Verif.RingBuf.C01_none_means_drained_partial",
    "Verif.RingBuf.C01_no_panic_partial",
    "Verif.RingBuf.C01_next_returns_partial",
    "Verif.RingBuf.C01_size_2_31_violated"
   ],
   "note": "Proved for every ring size 2^3..2^30 and every interleaving; false for a ring of 2^31 bytes (length mask includes the discard bit), refuted by C01_size_2_31_violated."
  },
  {
   "property": "C02",
   "status": "partial",
   "theorems": [
    "Verif.RingBuf.C02_held_stable_partial"
   ],
   "note": "Same ring sizes as C01."
  },
  {
   "property": "C03",
   "status": "partial",
   "theorems": [
    "Verif.RingBuf.C03_no_lost_wakeup_partial",
    "Verif.RingBuf.C03_position_published_partial"
   ],
   "note": "Same ring sizes as C01. Store buffer model: the position store may be delayed arbitrarily until a SeqCst fence."
  },
  {
   "property": "C04",
   "status": "proved",
   "theorems": [
    "Verif.Perf.C04_try_fold",
    "Verif.Perf.C04_delivers_all",
    "Verif.Perf.C04_open_power_of_two"
   ],
   "note": "Kernel writer assumed to lay records out as in perf_event.h (Spec.lean)."
  },
  {
   "property": "C05",
   "status": "proved",
   "theorems": [
    "Verif.Perf.C05_batches",
    "Verif.Perf.C05_final_read_completes"
   ],
   "note": ""
  },
  {
   "property": "C06",
   "status": "partial",
   "theorems": [
    "Verif.Linker.C06_calls_right_partial",
    "Verif.Linker.C06_entry_first_partial",
    "Verif.Linker.C06_two_text_sections_violated"
   ],
   "note": "Proved when the functions reachable from the program have distinct section-relative addresses. False otherwise: linked functions are keyed by address alone, so with two text sections a call can go to the wrong function."
  },
  {
   "property": "C07",
   "status": "partial",
   "theorems": [
    "Verif.Linker.C07_terminates",
    "Verif.Linker.C07_succeeds",
    "Verif.Linker.C07_each_once_partial"
   ],
   "note": "Termination and success are unconditional; exactly-once needs distinct addresses, as C06."
  },
  {
   "property": "C08",
   "status": "partial",
   "theorems": [
    "Verif.Linker.C08_order_independent_partial",
    "Verif.Linker.C08_as_if_alone_partial",
    "Verif.Linker.C08_program_calls_program_violated"
   ],
   "note": "Proved when no function refers to a program and no two programs share a symbol address. False when one program calls another."
  },
  {
   "property": "C09",
   "status": "partial",
   "theorems": [
    "Verif.Linker.C09_info_follows_code_partial",
    "Verif.Linker.C09_line_info_increasing_partial",
    "Verif.Linker.C09_records_of_function",
    "Verif.Linker.C09_func_records_of_function"
   ],
   "note": "Needs distinct addresses, as C06, and a line record for the first instruction of each function."
  },
  {
   "property": "C10",
   "status": "partial",
   "theorems": [
    "Verif.Reloc.C10_maps_patched_partial",
    "Verif.Reloc.C10_wrong_map_violated"
   ],
   "note": "Proved when each reference resolves to one map (Unambiguous). False for section symbols of sections holding several maps, refuted by C10_wrong_map_violated."
  },
  {
   "property": "C100",
   "status": "partial",
   "theorems": [
    "Verif.Local.C100_histories",
    "Verif.Local.C100_read_back",
    "Verif.Local.C100_removed",
    "Verif.Local.C100_asked",
    "Verif.Local.C100_created",
    "Verif.Local.C100_pointer_partial",
    "Verif.Local.C100_cgroup_value",
    "Verif.Local.C100_cgroup_values",
    "Verif.Local.C100_sizes",
    "Verif.Local.C100_refused",
    "Verif.Local.C100_array",
    "Verif.Local.C100_pointer_violated"
   ],
   "note": "Refuted: what a program writes through a pointer is lost, and the program not told, if the process has replaced the value since; proved while it has not."
  },
  {
   "property": "C101",
   "status": "partial",
   "theorems": [
    "Verif.Redirect.C101_get_partial",
    "Verif.Redirect.C101_iter_partial",
    "Verif.Redirect.C101_program_partial",
    "Verif.Redirect.C101_redirect_partial",
    "Verif.Redirect.C101_broadcast_partial",
    "Verif.Redirect.C101_flags",
    "Verif.Redirect.C101_exists_partial",
    "Verif.Redirect.C101_sets_partial",
    "Verif.Redirect.C101_refused",
    "Verif.Redirect.C101_load",
    "Verif.Redirect.C101_program_violated",
    "Verif.Redirect.C101_zero_violated",
    "Verif.Redirect.C101_socket_violated",
    "Verif.Redirect.C101_adopt_violated",
    "Verif.Redirect.C101_old_violated"
   ],
   "note": "Refuted: a program whose descriptor is 0 is left out silently; setting interface 0 or a queue of size 0 succeeds and removes the entry; a socket given to a map by value is closed by the call and so is not in the map; maps with values of four bytes made by others cannot be opened on kernels that know programs in maps; programs that read entries are rejected on older kernels. Proved for all histories without those."
  },
  {
   "property": "C102",
   "status": "partial",
   "theorems": [
    "Verif.Conv.C102_histories",
    "Verif.Conv.C102_none_left_partial",
    "Verif.Conv.C102_closed",
    "Verif.Conv.C102_round_trip",
    "Verif.Conv.C102_type",
    "Verif.Conv.C102_info",
    "Verif.Conv.C102_into_fds",
    "Verif.Conv.C102_iter",
    "Verif.Conv.C102_left_violated",
    "Verif.Conv.C102_refused_violated",
    "Verif.Conv.C102_many_violated",
    "Verif.Conv.C102_other_kind_violated",
    "Verif.Conv.C102_failure_violated",
    "Verif.Conv.C102_unpin_violated"
   ],
   "note": "Refuted: converting a netlink or BPF_PROG_ATTACH link to an FdLink fails and leaves the program attached with nothing to detach it; a refused conversion, a failed pin, unpin or into_file detaches the program; the FdLink of a trace point becomes a KProbeLink and any FdLink a link of a tracing program; unpin removes the file at the path even if it pins another link by then. Proved otherwise, for all histories."
  },
  {
   "property": "C103",
   "status": "partial",
   "theorems": [
    "Verif.Nested.Race.C103_got",
    "Verif.Nested.Race.C103_stored_partial",
    "Verif.Nested.Race.C103_failed",
    "Verif.Nested.Race.C103_succeeds",
    "Verif.Nested.Race.C103_missing",
    "Verif.Nested.Race.C103_put",
    "Verif.Nested.Race.C103_closed",
    "Verif.Nested.Race.C103_gone_violated",
    "Verif.Nested.Race.C103_reused_violated"
   ],
   "note": "Refuted: get fails with ENOENT from opening by id although at every moment a map is stored there, if another is stored in its place after the lookup; and if the id of the map looked up comes again before it is opened (after 2^31 maps on Linux), get hands out a map that was never stored. Proved: these are the only exceptions. The lookup itself is the first call, so that what others do before it is part of the state; values in the inner maps are the matter of C88."
  },
  {
   "property": "C104",
   "status": "partial",
   "theorems": [
    "Verif.RingBuf.Many.C104_turns_partial",
    "Verif.RingBuf.Many.C104_turns_held_partial",
    "Verif.RingBuf.Many.C104_first_lap_partial",
    "Verif.RingBuf.Many.C104_in_bounds",
    "Verif.RingBuf.Many.C104_twice_violated",
    "Verif.RingBuf.Many.C104_held_violated",
    "Verif.RingBuf.Many.C104_garbage_violated",
    "Verif.RingBuf.Many.C104_stuck_violated",
    "Verif.RingBuf.Many.C104_unwoken_violated"
   ],
   "note": "Refuted for readers that are read from at the same time: records are delivered to each of them; a held item is overwritten once another reader has released it (through safe code, a shared slice changes); a reader left behind takes the middle of one record for another and delivers what nobody submitted; a late release moves the shared position back, so that every reservation is refused although everything was read; and a reader waits for ever beside a submitted record. Proved: readers that take turns together deliver exactly the submitted records and held items do not change; before the ring was filled once every reader is given every record; and whatever they do, none panics or leaves the mapped area."
  },
  {
   "property": "C105",
   "status": "partial",
   "theorems": [
    "Verif.LogAttach.C105_attached_partial",
    "Verif.LogAttach.C105_succeeds",
    "Verif.LogAttach.C105_no_log",
    "Verif.LogAttach.C105_no_program",
    "Verif.LogAttach.C105_hidden_error_violated",
    "Verif.LogAttach.C105_passed_over_violated",
    "Verif.LogAttach.C105_remembered_violated",
    "Verif.LogAttach.C105_not_a_ring_violated"
   ],
   "note": "Refuted: a failure to list programs (EPERM without privileges) is reported as ProgramNotFound; a failure to open the log (EMFILE) as MapNotFound; after one failed probe every later attempt of the process ends in MapNotFound; and the type of the map is not checked, so that an mmapable array of that name is read as a ring buffer. Proved: under all interference success means a map of that name which the program used; success if nothing gets in the way and the log is a ring buffer; MapNotFound if there is none; ProgramNotFound if the program is not loaded."
  },
  {
   "property": "C106",
   "status": "partial",
   "theorems": [
    "Verif.Build.C106_built_partial",
    "Verif.Build.C106_failures",
    "Verif.Build.C106_succeeds_partial",
    "Verif.Build.C106_build_core",
    "Verif.Build.C106_no_deadlock",
    "Verif.Build.C106_streams",
    "Verif.Build.C106_one_flag",
    "Verif.Build.C106_host_partial",
    "Verif.Build.C106_skips",
    "Verif.Build.C106_same_name_violated",
    "Verif.Build.C106_reserved_name_violated",
    "Verif.Build.C106_not_utf8_violated",
    "Verif.Build.C106_left_behind_violated",
    "Verif.Build.C106_host_violated",
    "Verif.Build.C106_char_violated"
   ],
   "note": "Refuted: binaries of the same name in two packages overwrite each other although Ok is returned; a binary called aya-build cannot be copied; a line of cargo's error output that is not UTF-8 ends a successful build in a panic; a process left behind by cargo with its streams open makes the build wait for ever; on 32-bit Arm and little-endian POWER and MIPS hosts the emitted architecture is unknown to the crates; c_char is unsigned on 32-bit MIPS, where C has it signed. Proved otherwise, with cargo as a parameter that makes what its command line, read by an independent parser, asks for."
  },
  {
   "property": "C107",
   "status": "partial",
   "theorems": [
    "Verif.Stacks.C107_got_partial",
    "Verif.Stacks.C107_kept_partial",
    "Verif.Stacks.C107_missing",
    "Verif.Stacks.C107_get_leaves",
    "Verif.Stacks.C107_removed",
    "Verif.Stacks.C107_iterated",
    "Verif.Stacks.C107_stackid",
    "Verif.Stacks.C107_programs_violated",
    "Verif.Stacks.C107_reader_violated",
    "Verif.Stacks.C107_not_found_violated",
    "Verif.Stacks.C107_zero_violated"
   ],
   "note": "Refuted: two programs asking at once are both given the same id for different stacks; a program asking while a stack of the same bucket is read is given the id of that stack; a reader is told KeyNotFound while another reads the stack; frames from one at address 0 on are missing. Proved: calls for one id made one after another give the stack, whatever calls for other ids do, and under all interleavings what is read is one stack that was taken. Without build ids, on little-endian hosts."
  },
  {
   "property": "C108",
   "status": "partial",
   "theorems": [
    "Verif.Hygiene.C108_transparent_partial",
    "Verif.Hygiene.C108_disabled",
    "Verif.Hygiene.C108_level_and_context",
    "Verif.Hygiene.C108_expands",
    "Verif.Hygiene.C108_leaving_violated",
    "Verif.Hygiene.C108_type_violated",
    "Verif.Hygiene.C108_name_violated",
    "Verif.Hygiene.C108_surplus_violated",
    "Verif.Hygiene.C108_level_violated",
    "Verif.Hygiene.C108_long_violated"
   ],
   "note": "Refuted: ? and return in an argument leave a closure of the macro, so that nothing is logged and the function goes on; a type called Header, Field or Argument means the library's in arguments, so that size_of::<Header>() is logged wrong; names the macro uses for itself cannot be logged; surplus arguments and a level given to error! are accepted and dropped; after a text of 64 KiB the rest is not evaluated. Proved otherwise, for a fragment of Rust with calls, blocks, let, ? and return; composed with C42 for what is shown."
  },
  {
   "property": "C109",
   "status": "partial",
   "theorems": [
    "Verif.Listing.C109_links_partial",
    "Verif.Listing.C109_errors",
    "Verif.Listing.C109_descriptors",
    "Verif.Listing.C109_ends",
    "Verif.Listing.C109_type",
    "Verif.Listing.C109_moment_violated",
    "Verif.Listing.C109_effect_violated",
    "Verif.Listing.C109_delay_violated"
   ],
   "note": "Refuted: the list can tell of two links of which one was gone before the other came; a link is kept while it is looked at, so that giving it up does not detach at once, and somebody else can open it meanwhile and keep it. Proved otherwise."
  },
  {
   "property": "C11",
   "status": "partial",
   "theorems": [
    "Verif.Reloc.C11_externs_patched",
    "Verif.Reloc.C11_missing_strong_fails",
    "Verif.Reloc.C11_poison_number",
    "Verif.Reloc.C11_no_panic_partial",
    "Verif.Reloc.C11_call_of_variable_violated"
   ],
   "note": "No panic proved when calls refer to functions; a call relocated against an untyped kernel variable panics (refuted)."
  },
  {
   "property": "C110",
   "status": "partial",
   "theorems": [
    "Verif.Exit.C110_left_partial",
    "Verif.Exit.C110_modern",
    "Verif.Exit.C110_pinned",
    "Verif.Exit.C110_entries_partial",
    "Verif.Exit.C110_dropped_partial",
    "Verif.Exit.C110_restart",
    "Verif.Exit.C110_first_start",
    "Verif.Exit.C110_left_violated",
    "Verif.Exit.C110_dropped_violated",
    "Verif.Exit.C110_cgroup_violated",
    "Verif.Exit.C110_classifier_violated",
    "Verif.Exit.C110_xdp_violated",
    "Verif.Exit.C110_perf_event_violated",
    "Verif.Exit.C110_entries_violated",
    "Verif.Exit.C110_restart_violated"
   ],
   "note": "Refuted: programs of sockets and infrared receivers and classifiers attached by netlink are left on all kernels, XDP programs where the kernel takes no link, programs of cgroups before 5.7, PerfEvent programs if another program was started, entries of probes before 4.17; dropping the link of an infrared program does nothing; the documented way to replace a pinned program fails with EEXIST at each start but the first. Proved: nothing else is left."
  },
  {
   "property": "C111",
   "status": "partial",
   "theorems": [
    "Verif.Stats.C111_count_partial",
    "Verif.Stats.C111_time_partial",
    "Verif.Stats.C111_exact",
    "Verif.Stats.C111_released",
    "Verif.Stats.C111_errors",
    "Verif.Stats.C111_missed_violated",
    "Verif.Stats.C111_time_violated",
    "Verif.Stats.C111_after_violated",
    "Verif.Stats.C111_disabled_violated"
   ],
   "note": "Refuted at the edges of the period: a run that began before statistics were enabled is missed, one that began before the first reading is counted with all of its time, one that goes on is counted after the descriptor is dropped; and dropping it does not disable statistics while somebody else has one. Proved: bounds of the differences under all interleavings, and exactness where no run crosses an edge."
  },
  {
   "property": "C112",
   "status": "partial",
   "theorems": [
    "Verif.Reload.C112_stays",
    "Verif.Reload.C112_loaded",
    "Verif.Reload.C112_shared",
    "Verif.Reload.C112_contents_partial",
    "Verif.Reload.C112_again_partial",
    "Verif.Reload.C112_again_plain",
    "Verif.Reload.C112_rodata_violated",
    "Verif.Reload.C112_race_violated",
    "Verif.Reload.C112_reset_violated",
    "Verif.Reload.C112_size_violated",
    "Verif.Reload.C112_zeros_violated"
   ],
   "note": "Proved for all interleavings, failures and ends of processes: pins are never replaced, processes that have loaded share the pinned maps, maps without data sections keep their contents, and loading alone succeeds again unless a frozen map is pinned where the object has a data section. Refuted: a pinned .rodata cannot be loaded twice; of two processes started together one fails; a pinned .data is reset by another start; a pinned map of another size is taken; a process ended after pinning leaves zeros."
  },
  {
   "property": "C113",
   "status": "partial",
   "theorems": [
    "Verif.TcLink.C113_attached",
    "Verif.TcLink.C113_restored",
    "Verif.TcLink.C113_outlives",
    "Verif.TcLink.C113_detached",
    "Verif.TcLink.C113_removed",
    "Verif.TcLink.C113_replaced_partial",
    "Verif.TcLink.C113_gone_partial",
    "Verif.TcLink.C113_not_replaced",
    "Verif.TcLink.C113_once_more_partial",
    "Verif.TcLink.C113_names",
    "Verif.TcLink.C113_tcx",
    "Verif.TcLink.C113_handle_violated",
    "Verif.TcLink.C113_renamed_violated",
    "Verif.TcLink.C113_reused_violated",
    "Verif.TcLink.C113_again_violated",
    "Verif.TcLink.C113_twice_violated"
   ],
   "note": "Proved for all kernel states in which the filter is there and the interface has its name. Refuted: with handle 0 detaching removes all filters of the priority; renamed interfaces and reused numbers make the link stand for somebody else's filter; after others have removed the filter the program cannot be attached again, since the id is still in its table and the new filter is dropped; replacing through a second link of the program itself removes the filter."
  },
  {
   "property": "C114",
   "status": "partial",
   "theorems": [
    "Verif.Modules.C114_written",
    "Verif.Modules.C114_complete",
    "Verif.Modules.C114_found_partial",
    "Verif.Modules.C114_absent_partial",
    "Verif.Modules.C114_loaded",
    "Verif.Modules.C114_comment",
    "Verif.Modules.C114_release_violated",
    "Verif.Modules.C114_name_violated",
    "Verif.Modules.C114_empty_violated",
    "Verif.Modules.C114_outside_violated",
    "Verif.Modules.C114_short_violated",
    "Verif.Modules.C114_longer_violated"
   ],
   "note": "Proved for all trees whose names and aliases are tidy and distinct and whose modules are below `kernel`, given enough room. Refuted: names of modules are accepted according to the help but not found; one empty alias hides all modules after it; modules outside `kernel` are listed but not found; a full file system is not noticed for the last 8192 bytes, after which an alias can load another module; a file `m.ko.bak` is loaded in place of `m.ko.xz`; the directory of the kernel's release is never used."
  },
  {
   "property": "C115",
   "status": "partial",
   "theorems": [
    "Verif.Decls.C115_declared",
    "Verif.Decls.C115_accepted_partial",
    "Verif.Decls.C115_needed",
    "Verif.Decls.C115_aligned_partial",
    "Verif.Decls.C115_trie_violated",
    "Verif.Decls.C115_empty_violated",
    "Verif.Decls.C115_bloom_violated",
    "Verif.Decls.C115_flags_violated",
    "Verif.Decls.C115_unused_violated",
    "Verif.Decls.C115_cut_violated",
    "Verif.Decls.C115_align_violated"
   ],
   "note": "Proved for all declarations whose numbers have at most 32 bits: the loader asks for what is declared; the kernel makes it if the checks pass, the flags are among those of the map type and sizes are within limits; checks refuse nothing else. Refuted: tries without BPF_F_NO_PREALLOC, arrays, ring buffers, Bloom filters and program arrays without entries, 16 hash functions and unknown flags compile and no kernel makes them; maps whose methods are not called are not checked; a number of entries above 32 bits is cut without an error; arrays of values with an alignment of 16 give references that are not aligned."
  },
  {
   "property": "C116",
   "status": "partial",
   "theorems": [
    "Verif.Verdict.C116_args_partial",
    "Verif.Verdict.C116_verdict_partial",
    "Verif.Verdict.C116_user_partial",
    "Verif.Verdict.C116_all",
    "Verif.Verdict.C116_once",
    "Verif.Verdict.C116_hang",
    "Verif.Verdict.C116_args_violated",
    "Verif.Verdict.C116_two_violated",
    "Verif.Verdict.C116_empty_violated",
    "Verif.Verdict.C116_none_violated",
    "Verif.Verdict.C116_unfinished_violated",
    "Verif.Verdict.C116_forged_violated"
   ],
   "note": "Proved for all arguments of one word each, all binaries and all machines that were switched off as they should, when all that is printed is whole lines that do not begin as the verdict does; consoles may be terminals; that there is a verdict only if it was said once, with an exit code of 0, and that the command succeeds if and only if all machines do, are proved without conditions; the host stops the machine if and only if the kernel panics, stalls or locks up twice. Refuted: an argument with a space is cut or becomes two; with no binaries or no machines the run is a success; the verdict goes unseen after output that does not end its line; a binary that prints the verdict before the kernel panics makes a success."
  },
  {
   "property": "C117",
   "status": "partial",
   "theorems": [
    "Verif.Builds.C117_newest",
    "Verif.Builds.C117_found_partial",
    "Verif.Builds.C117_mismatch_violated",
    "Verif.Builds.C117_ambiguous_violated",
    "Verif.Builds.C117_eleventh_violated",
    "Verif.Builds.C117_first_violated"
   ],
   "note": "Proved for all sites: what is chosen is of the line, has one image and one package of modules of that release, and no newer release has; one is found if it is among the ten newest and nothing is ambiguous or unavailable in it and newer releases. Refuted: image and modules can be of two builds of one release; a newer release with two images makes the command fail; a release behind ten that are not complete is not found; the first release of a line, named without a patch level, is never found."
  },
  {
   "property": "C118",
   "status": "partial",
   "theorems": [
    "Verif.Fetch.C118_whole",
    "Verif.Fetch.C118_current_partial",
    "Verif.Fetch.C118_calm_partial",
    "Verif.Fetch.C118_kept",
    "Verif.Fetch.C118_offline",
    "Verif.Fetch.C118_back_violated",
    "Verif.Fetch.C118_together_violated"
   ],
   "note": "Proved for all histories with crashes at any point: the file is absent or exactly a version of the server; after a run with nothing wrong it is the version that the server has now, if tags tell versions, none begins with another, and the server never goes back, or if nothing crashed; unchanged files are not downloaded again. Refuted: after a crash between the file and its tag, and a server that goes back to the version before, all runs succeed with a file that the server does not have; two runs at a time can leave the older file with the newer tag, for good."
  },
  {
   "property": "C119",
   "status": "partial",
   "theorems": [
    "Verif.Cpio.C119_round_trip_partial",
    "Verif.Cpio.C119_written",
    "Verif.Cpio.C119_parents",
    "Verif.Cpio.C119_modules",
    "Verif.Cpio.C119_programs_partial",
    "Verif.Cpio.C119_init",
    "Verif.Cpio.C119_trailer_violated",
    "Verif.Cpio.C119_long_violated",
    "Verif.Cpio.C119_twice_violated"
   ],
   "note": "Proved for all lists of entries, against a separate reader after the format that kernels document: what is written without an error is read back as exactly what was asked for, whatever follows it, if names have no zero byte, fewer than 4096 bytes and are not that of the trailer; and when it is written without an error. Refuted for other names: an entry with the name of the trailer hides itself and all later ones, and a name of 4096 bytes is written without an error and skipped by kernels. For all modules and programs: directories come before what is in them, below lib/modules there is exactly what the host has without links, and each test program is found under its name if no two of a profile share one; the first program is init of the distribution. Refuted: of two programs of a profile with one name, as a program and its own tests have, only the last is there, and nothing says so. Not covered: errors of the disk and of cargo."
  },
  {
   "property": "C12",
   "status": "partial",
   "theorems": [
    "Verif.Reloc.C12_no_panic_partial",
    "Verif.Reloc.C12_last_instruction_violated"
   ],
   "note": "Proved when each relocated load has its second half; a reference from the last instruction panics (refuted)."
  },
  {
   "property": "C13",
   "status": "partial",
   "theorems": [
    "Verif.Btf.C13_roundtrip_partial",
    "Verif.Btf.C13_reparse_partial",
    "Verif.Btf.C13_parse_no_panic",
    "Verif.Btf.C13_built_partial",
    "Verif.Btf.C13_constructors",
    "Verif.Btf.C13_new_violated",
    "Verif.Btf.C13_unknown_kind_violated",
    "Verif.Btf.C13_layout_violated",
    "Verif.Btf.C13_long_list_violated"
   ],
   "note": "Round trip of any canonical BTF whose records are coherent, of any parsed canonical BTF and of any BTF built with the API; parsing never panics. Missing: false without those conditions (BTF::new alone, unknown kinds, gaps between header and types, lists over 65535 entries), shown by the _violated theorems."
  },
  {
   "property": "C14",
   "status": "partial",
   "theorems": [
    "Verif.Btf.C14_records",
    "Verif.Btf.C14_only_supported_partial",
    "Verif.Btf.C14_well_formed",
    "Verif.Btf.C14_sized_empty_section_violated",
    "Verif.Btf.C14_section_struct_size_violated"
   ],
   "note": "Every record, feature set and section/symbol table: ids and string offsets kept, each record becomes what the kernel understands, result round-trips. Not fully true: an empty data section with its size already set is left alone on kernels without empty sections, and the STRUCT replacing a data section has the wrong size (both refuted)."
  },
  {
   "property": "C15",
   "status": "proved",
   "theorems": [
    "Verif.Btf.C15_resolve"
   ],
   "note": "All type graphs and ids: result, cycle or depth limit, unknown id."
  },
  {
   "property": "C16",
   "status": "partial",
   "theorems": [
    "Verif.Btf.C16_size_partial",
    "Verif.Btf.C16_matrix_violated",
    "Verif.Btf.C16_outer_dimension_ignored"
   ],
   "note": "Size of every type with at most one array dimension. False for nested arrays: the outer dimension is ignored."
  },
  {
   "property": "C17",
   "status": "partial",
   "theorems": [
    "Verif.Btf.C17_string",
    "Verif.Btf.C17_total_partial",
    "Verif.Btf.C17_panic_violated",
    "Verif.Btf.C17_added_string"
   ],
   "note": "A returned string is the one at the offset; added strings are found. string_at panics for an offset between the string section length and header+offset+length; total below that."
  },
  {
   "property": "C18",
   "status": "partial",
   "theorems": [
    "Verif.Core.C18_field_partial",
    "Verif.Core.C18_accepted",
    "Verif.Core.C18_signed_partial",
    "Verif.Core.C18_far_violated",
    "Verif.Core.C18_signed_violated"
   ],
   "note": "The values patched for a byte offset, size, shifts and signedness make the program read exactly the field's bits, for fields of 1, 2, 4 or 8 byte types whose position is below 2^32 bits. Refuted: a position of 2^32 bits or more wraps; an integer encoding with several flags, none of them the sign flag, is taken as signed."
  },
  {
   "property": "C19",
   "status": "partial",
   "theorems": [
    "Verif.Core.C19_patch",
    "Verif.Core.C19_only_relocated",
    "Verif.Core.C19_every_record",
    "Verif.Core.C19_succeeds",
    "Verif.Core.C19_bitfield_violated",
    "Verif.Core.C19_next_violated",
    "Verif.Core.C19_truncated_violated"
   ],
   "note": "Each relocated instruction is patched in its operand only and nothing else changes. Refuted: a plain member that is a bitfield in the kernel panics the loader; relocating an instruction of class LD other than a 64-bit immediate load also rewrites the next instruction; a value above 32 bits is cut to its low half in an arithmetic instruction."
  },
  {
   "property": "C20",
   "status": "partial",
   "theorems": [
    "Verif.Core.C20_spelled",
    "Verif.Core.C20_path_partial",
    "Verif.Core.C20_missing_partial",
    "Verif.Core.C20_compatible",
    "Verif.Core.C20_candidates",
    "Verif.Core.C20_flexible_violated",
    "Verif.Core.C20_local_index_violated",
    "Verif.Core.C20_matrix_violated",
    "Verif.Core.C20_cycle_violated"
   ],
   "note": "An accepted access string spells one path; a match is where the same path leads in the kernel's type; no match means no such path. Not covered: offsets beyond 2^64 bits, and for the last part arrays of length 0. Refuted: of a flexible array member only one index is accepted; the local offset of p[1].a counts bytes as bits, so that some bitfields are refused; elements that are themselves arrays of two or more dimensions are found in the wrong place; an anonymous member of its own type exhausts the stack."
  },
  {
   "property": "C21",
   "status": "partial",
   "theorems": [
    "Verif.Core.C21_choice_partial",
    "Verif.Core.C21_order_partial",
    "Verif.Core.C21_reported",
    "Verif.Core.C21_resolved",
    "Verif.Core.C21_order_violated",
    "Verif.Core.C21_width_violated"
   ],
   "note": "When a value is computable for every match: resolved exactly if all agree, in any order. On success every match that gives a value gives this one. Refuted: a first match without value hides all others, so the result depends on the order; fields of different width are not conflicting, and the width depends on the order."
  },
  {
   "property": "C22",
   "status": "proved",
   "theorems": [
    "Verif.Section.C22_section_name",
    "Verif.Section.C22_rejected",
    "Verif.Section.C22_unambiguous",
    "Verif.Section.C22_is_program",
    "Verif.Section.C22_section_kinds"
   ],
   "note": ""
  },
  {
   "property": "C23",
   "status": "partial",
   "theorems": [
    "Verif.Obj.C23_frame",
    "Verif.Obj.C23_written_partial",
    "Verif.Obj.C23_errors",
    "Verif.Obj.C23_succeeds",
    "Verif.Obj.C23_duplicate_name_violated"
   ],
   "note": "Written bytes proved when names are unique, variables do not overlap and no two maps share a section. With two variables of one name only one, chosen by hash order, is written (refuted)."
  },
  {
   "property": "C24",
   "status": "proved",
   "theorems": [
    "Verif.Obj.C24_decode",
    "Verif.Obj.C24_roundtrip"
   ],
   "note": ""
  },
  {
   "property": "C25",
   "status": "proved",
   "theorems": [
    "Verif.Obj.C25_unsupported",
    "Verif.Obj.C25_supported",
    "Verif.Obj.C25_probed_once"
   ],
   "note": ""
  },
  {
   "property": "C26",
   "status": "partial",
   "theorems": [
    "Verif.Obj.C26_full_partial",
    "Verif.Obj.C26_short_partial",
    "Verif.Obj.C26_minimal",
    "Verif.Obj.C26_rejected",
    "Verif.Obj.C26_pinning_unchecked_violated"
   ],
   "note": "Proved for the two defined pinning values; any other value is read into a Rust enum unchecked (undefined behaviour, refuted)."
  },
  {
   "property": "C27",
   "status": "partial",
   "theorems": [
    "Verif.Util.C27_at_least",
    "Verif.Util.C27_at_least_unknown",
    "Verif.Util.C27_code_is_linux_version_code",
    "Verif.Util.C27_code_fits",
    "Verif.Util.C27_code_monotone_partial",
    "Verif.Util.C27_code_monotone_violated"
   ],
   "note": "Comparison and code proved for all versions. The code is not monotone across 4.4/4.9 patch levels above 255, as in the kernel's own macro."
  },
  {
   "property": "C28",
   "status": "proved",
   "theorems": [
    "Verif.Util.C28_parse_exact",
    "Verif.Util.C28_kernel_format_sorted",
    "Verif.Util.C28_sysfs_file",
    "Verif.Util.C28_accepts_iff"
   ],
   "note": ""
  },
  {
   "property": "C29",
   "status": "proved",
   "theorems": [
    "Verif.Maps.C29_layout",
    "Verif.Maps.C29_read",
    "Verif.Maps.C29_round_trip",
    "Verif.Maps.C29_one_value_per_cpu",
    "Verif.Maps.C29_insert_get"
   ],
   "note": "Every value size > 0 and CPU count: layout of the kernel buffer, read back, exactly one value per possible CPU, insert followed by get."
  },
  {
   "property": "C30",
   "status": "partial",
   "theorems": [
    "Verif.Maps.C30_keys",
    "Verif.Maps.C30_unmodified",
    "Verif.Maps.C30_removals_skipped",
    "Verif.Maps.C30_item_was_read",
    "Verif.Maps.C30_error_ends",
    "Verif.Maps.C30_value_error_continues",
    "Verif.Maps.C30_duplicate_after_restart_violated"
   ],
   "note": "Every content, kernel order and kernel behaviour. Not fully true: when the current key is removed concurrently the kernel restarts from the first key and entries are yielded twice (refuted)."
  },
  {
   "property": "C31",
   "status": "partial",
   "theorems": [
    "Verif.Maps.C31_rounded_partial",
    "Verif.Maps.C31_fits",
    "Verif.Maps.C31_zero",
    "Verif.Maps.C31_overflow_violated",
    "Verif.Maps.C31_ringbuf_size",
    "Verif.Maps.C31_other_sizes"
   ],
   "note": "Smallest power-of-two multiple of the page size, for every size up to 2^31. Above that the computed size wraps to 0 (refuted)."
  },
  {
   "property": "C32",
   "status": "proved",
   "theorems": [
    "Verif.Maps.C32_out_of_bounds",
    "Verif.Maps.C32_in_bounds",
    "Verif.Maps.C32_set_then_get",
    "Verif.Maps.C32_iter"
   ],
   "note": "Every indexed map type and operation, every kernel behaviour."
  },
  {
   "property": "C33",
   "status": "proved",
   "theorems": [
    "Verif.Maps.C33_fill_then_freeze"
   ],
   "note": "Every map and kernel behaviour: exactly the calls, in order, with the final bytes."
  },
  {
   "property": "C34",
   "status": "partial",
   "theorems": [
    "Verif.Links.C34_at_most_once",
    "Verif.Links.C34_accounted_for",
    "Verif.Links.C34_none_lost_partial",
    "Verif.Links.C34_drop_detaches",
    "Verif.Links.C34_taken_stays",
    "Verif.Links.C34_takes_effect_partial",
    "Verif.Links.C34_lirc_violated",
    "Verif.Links.C34_xdp_netlink_violated",
    "Verif.Links.C34_replace_failure_violated"
   ],
   "note": "Every history over any number of programs, any kernel answers and set order. Not fully true, each refuted by a concrete history: a dropped LircLink is never detached; a netlink XDP link that outlives its program names a closed descriptor; a failed replacement loses a netlink link."
  },
  {
   "property": "C35",
   "status": "proved",
   "theorems": [
    "Verif.Links.C35_state",
    "Verif.Links.C35_attach",
    "Verif.Links.C35_load",
    "Verif.Links.C35_unload",
    "Verif.Links.C35_unload_succeeds"
   ],
   "note": "Every history; when a link fails to detach, unload reports the error and the program stays loaded."
  },
  {
   "property": "C36",
   "status": "partial",
   "theorems": [
    "Verif.Retry.C36_retry",
    "Verif.Retry.C36_first_success",
    "Verif.Retry.C36_no_stale_log",
    "Verif.Retry.C36_non_utf8_log_violated"
   ],
   "note": "Every kernel behaviour and retry limit. A verifier log that is not valid UTF-8 panics (refuted)."
  },
  {
   "property": "C37",
   "status": "proved",
   "theorems": [
    "Verif.Maps.C37_fused",
    "Verif.Maps.C37_error_last",
    "Verif.Maps.C37_enumeration",
    "Verif.Maps.C37_exact"
   ],
   "note": "Every kernel behaviour; exact enumeration when the set of ids does not change."
  },
  {
   "property": "C38",
   "status": "proved",
   "theorems": [
    "Verif.Util.C38_handle_roundtrip",
    "Verif.Util.C38_handle_roundtrip'",
    "Verif.Util.C38_make_halves",
    "Verif.Util.C38_priority_roundtrip",
    "Verif.Util.C38_parent"
   ],
   "note": ""
  },
  {
   "property": "C39",
   "status": "proved",
   "theorems": [
    "Verif.Netlink.C39_roundtrip",
    "Verif.Netlink.C39_xdp_request",
    "Verif.Netlink.C39_clsact_request",
    "Verif.Netlink.C39_tc_attach_request",
    "Verif.Netlink.C39_tc_other_requests"
   ],
   "note": "Any attributes and buffer contents, buffers up to 65535 bytes (requests have 64 or 296); the exact bytes of every request that is sent."
  },
  {
   "property": "C40",
   "status": "proved",
   "theorems": [
    "Verif.Netlink.C40_iterator",
    "Verif.Netlink.C40_slices",
    "Verif.Netlink.C40_recv_no_panic",
    "Verif.Netlink.C40_recv_slices"
   ],
   "note": "Every byte string; full characterisation of the iterator by the wire format."
  },
  {
   "property": "C41",
   "status": "partial",
   "theorems": [
    "Verif.Netlink.C41_multipart_partial",
    "Verif.Netlink.C41_last_datagram_partial",
    "Verif.Netlink.C41_ack",
    "Verif.Netlink.C41_waits_partial",
    "Verif.Netlink.C41_error_partial",
    "Verif.Netlink.C41_long_datagram_violated"
   ],
   "note": "Every reply in datagrams of at most 4096 bytes. A longer datagram is cut, and its messages are lost with an error (C41_long_datagram_violated)."
  },
  {
   "property": "C42",
   "status": "partial",
   "theorems": [
    "Verif.Log.C42_logged_as_written_partial",
    "Verif.Log.C42_sent"
   ],
   "note": "Every format string, argument list, value, buffer content and standard-library texts, from format string to logger. Excluded: &[u8;4], &[u8;6], &[u8;16] in hexadecimal (see C43)."
  },
  {
   "property": "C43",
   "status": "partial",
   "theorems": [
    "Verif.Log.C43_no_crash_partial",
    "Verif.Log.C43_hex_array_violated"
   ],
   "note": "Every statement that compiles, except hexadecimal &[u8;4], &[u8;6], &[u8;16]: flush panics on each of those (refuted for all of them)."
  },
  {
   "property": "C44",
   "status": "partial",
   "theorems": [
    "Verif.Log.C44_parses",
    "Verif.Log.C44_rejects_partial",
    "Verif.Log.C44_exact_partial",
    "Verif.Log.C44_stray_closers_violated"
   ],
   "note": "All well-formed strings parse to their meaning. Of the others, only those with single closing braces around {{ are accepted (refuted: `}{{}`)."
  },
  {
   "property": "C45",
   "status": "partial",
   "theorems": [
    "Verif.Log.C45_accepted",
    "Verif.Log.C45_any_order",
    "Verif.Log.C45_empty_message",
    "Verif.Log.C45_only_unknown_partial",
    "Verif.Log.C45_unknown_kind_violated"
   ],
   "note": "Every byte string. Unknown field kinds, levels and hints are undefined behaviour instead of errors (refuted); nothing else is."
  },
  {
   "property": "C46",
   "status": "partial",
   "theorems": [
    "Verif.UProbe.C46_mapped_partial",
    "Verif.UProbe.C46_resolved",
    "Verif.UProbe.C46_virtual_address",
    "Verif.UProbe.C46_debug_file_violated",
    "Verif.UProbe.C46_debug_file_fails"
   ],
   "note": "A symbol of the attached file itself resolves to the offset the loader maps (given that sections lie in segments as linkers lay them out). Refuted for symbols found only in a separate debug file: the offset is taken from the debug file's section table."
  },
  {
   "property": "C47",
   "status": "proved",
   "theorems": [
    "Verif.UProbe.C47_resolved",
    "Verif.UProbe.C47_attached"
   ],
   "note": "Offsets and cookies as resolved, and the probes that run afterwards, over every history and every answer of the kernel that gives fresh descriptors."
  },
  {
   "property": "C48",
   "status": "partial",
   "theorems": [
    "Verif.UProbe.C48_kernel_line_partial",
    "Verif.UProbe.C48_accepted_iff",
    "Verif.UProbe.C48_inode_violated",
    "Verif.UProbe.C48_trailing_space_violated"
   ],
   "note": "Every line the kernel prints for a mapping with an inode number below 2^32 and a path without white space at its ends parses to exactly that mapping's fields; the set of accepted lines is characterised. Refuted: 64-bit inode numbers are rejected; trailing white space of a path is lost."
  },
  {
   "property": "C49",
   "status": "partial",
   "theorems": [
    "Verif.UProbe.C49_lookup_partial",
    "Verif.UProbe.C49_only_such",
    "Verif.UProbe.C49_empty_map",
    "Verif.UProbe.C49_other_library_violated",
    "Verif.UProbe.C49_inode_violated"
   ],
   "note": "In the printed map of any process the lookup returns the first path naming the library, or nothing. Refuted: a hyphen after the name is accepted, so libapt finds libapt-pkg; a mapping with a 64-bit inode number makes the lookup fail."
  },
  {
   "property": "C50",
   "status": "proved",
   "theorems": [
    "Verif.Ksyms.C50_resolved_to_listed",
    "Verif.Ksyms.C50_errors",
    "Verif.Ksyms.C50_succeeds",
    "Verif.Ksyms.C50_kernel_line_listed",
    "Verif.Ksyms.C50_no_strong_missing"
   ],
   "note": "Listing is any list of lines; BTF lookup of typed externs is a parameter."
  },
  {
   "property": "C51",
   "status": "proved",
   "theorems": [
    "Verif.Util.C51_parse_release",
    "Verif.Util.C51_parse_wf",
    "Verif.Util.C51_source_precedence",
    "Verif.Util.C51_ubuntu_signature",
    "Verif.Util.C51_debian_version"
   ],
   "note": ""
  },
  {
   "property": "C52",
   "status": "partial",
   "theorems": [
    "Verif.Util.C52_symbol_line_partial",
    "Verif.Util.C52_symbol_table",
    "Verif.Util.C52_module_suffix_violated"
   ],
   "note": "Module symbols keep their tab-separated [module] suffix in the name, refuted by C52_module_suffix_violated."
  },
  {
   "property": "C53",
   "status": "proved",
   "theorems": [
    "Verif.Util.C53_name_roundtrip"
   ],
   "note": ""
  },
  {
   "property": "C54",
   "status": "proved",
   "theorems": [
    "Verif.Section.C54_macro_roundtrip",
    "Verif.Section.C54_macro_is_program"
   ],
   "note": ""
  },
  {
   "property": "C55",
   "status": "partial",
   "theorems": [
    "Verif.Obj.C55_functions_tile",
    "Verif.Obj.C55_accepts",
    "Verif.Obj.C55_program",
    "Verif.Obj.C55_no_panic_partial",
    "Verif.Obj.C55_overlong_symbol_violated"
   ],
   "note": "No panic proved when symbols end inside the section; a longer symbol panics (refuted)."
  },
  {
   "property": "C56",
   "status": "proved",
   "theorems": [
    "Verif.Maps.C56_step",
    "Verif.Maps.C56_sequence",
    "Verif.Maps.C56_iteration",
    "Verif.Maps.C56_queue_order"
   ],
   "note": "Against a specification of the kernel's hash table, queue and stack; every operation sequence."
  },
  {
   "property": "C57",
   "status": "proved",
   "theorems": [
    "Verif.Maps.C57_one_map",
    "Verif.Maps.C57_maps_created",
    "Verif.Maps.C57_succeeds"
   ],
   "note": "Every order of maps, loader setting and kernel behaviour; descriptors are not closed in the model."
  },
  {
   "property": "C58",
   "status": "partial",
   "theorems": [
    "Verif.Maps.C58_created_partial",
    "Verif.Maps.C58_opened",
    "Verif.Maps.C58_buffers",
    "Verif.Maps.C58_reused_pin_violated"
   ],
   "note": "Holds for created maps and maps opened by pin, id or descriptor. False for maps reused from their pin while loading: the sizes of the object file are believed (refuted with a kernel whose pinned map has larger values)."
  },
  {
   "property": "C59",
   "status": "partial",
   "theorems": [
    "Verif.Netlink.C59_find_partial",
    "Verif.Netlink.C59_detach_partial",
    "Verif.Netlink.C59_detach_refused_partial",
    "Verif.Netlink.C59_other_filter_violated"
   ],
   "note": "Holds when all filters of the hook are bpf filters. Refuted otherwise: option 7 of a filter of another kind (for flower, a source address mask) is read as a name, and the whole operation fails."
  },
  {
   "property": "C60",
   "status": "proved",
   "theorems": [
    "Verif.Netlink.C60_attach_reply",
    "Verif.Netlink.C60_attach_errors",
    "Verif.Netlink.C60_short_payload_unchecked"
   ],
   "note": "The read of the tcmsg is not checked against the payload length (C60_short_payload_unchecked); the kernel always sends a whole one."
  },
  {
   "property": "C61",
   "status": "proved",
   "theorems": [
    "Verif.Btf.C61_found",
    "Verif.Btf.C61_complete"
   ],
   "note": "Every table. Completeness needs readable names for the types of the wanted kind: the search stops with an error at the first unreadable one."
  },
  {
   "property": "C62",
   "status": "partial",
   "theorems": [
    "Verif.UProbe.C62_failed",
    "Verif.UProbe.C62_refused",
    "Verif.UProbe.C62_detached",
    "Verif.UProbe.C62_names",
    "Verif.UProbe.C62_multi",
    "Verif.UProbe.C62_fallback",
    "Verif.UProbe.C62_no_panic_partial",
    "Verif.UProbe.C62_event_leak_violated",
    "Verif.UProbe.C62_nul_path_violated"
   ],
   "note": "Refuted on kernels before 4.17: the event definition in tracefs is removed while the perf event is open, so it stays. Refuted for paths with a NUL character when probes are attached one at a time: panic."
  },
  {
   "property": "C63",
   "status": "partial",
   "theorems": [
    "Verif.UProbe.C63_target",
    "Verif.UProbe.C63_unknown_target",
    "Verif.UProbe.Cache.C63_cache_partial",
    "Verif.UProbe.Cache.C63_old_count_violated",
    "Verif.UProbe.Cache.C63_positions_violated"
   ],
   "note": "Which path is used is proved exactly. Cache files in the current format are read exactly; in the old format only if the count happens to be UTF-8 (refuted); positions are not checked (refuted: panic or read out of bounds)."
  },
  {
   "property": "C64",
   "status": "partial",
   "theorems": [
    "Verif.Core.C64_same_type",
    "Verif.Core.C64_kinds",
    "Verif.Core.C64_local_id",
    "Verif.Core.C64_enum_value",
    "Verif.Core.C64_enum_exists",
    "Verif.Core.C64_field_exists_partial",
    "Verif.Core.C64_type_exists_partial",
    "Verif.Core.C64_type_value_partial",
    "Verif.Core.C64_missing_type_violated",
    "Verif.Core.C64_replaced_violated"
   ],
   "note": "Proved for enumerators; for types except rewritten 64-bit enums. Refuted: the size or id of a missing type makes loading fail instead of poisoning the instruction; a rewritten 64-bit enum is said not to exist."
  },
  {
   "property": "C65",
   "status": "partial",
   "theorems": [
    "Verif.ObjMaps.C65_definition",
    "Verif.ObjMaps.C65_c_sizes_partial",
    "Verif.ObjMaps.C65_variable",
    "Verif.ObjMaps.C65_matrix_violated"
   ],
   "note": "Exact result, both directions, relative to aya's own type sizes; C sizes for types with at most one array dimension. Violated: values of type int[2][3] get 12 bytes. Assumes BTF in the usual layout (types, then strings, below 4 GiB). Names that are not UTF-8 are compared as bytes."
  },
  {
   "property": "C66",
   "status": "partial",
   "theorems": [
    "Verif.ObjMaps.C66_maps_partial",
    "Verif.ObjMaps.C66_large_bss_violated",
    "Verif.ObjMaps.C66_maps_panic_violated"
   ],
   "note": "Violated: a .bss section of 4 GiB or more gets a truncated value size; a symbol of a maps section reaching past its end panics. Sections of other kinds (programs, text) are C24/C25; ELF reading itself is the object crate and not modelled."
  },
  {
   "property": "C67",
   "status": "partial",
   "theorems": [
    "Verif.Ext.C67_records_partial",
    "Verif.Ext.C67_panic_only_partial",
    "Verif.Ext.C67_given_partial",
    "Verif.Ext.C67_truncated",
    "Verif.Ext.C67_record_size_violated",
    "Verif.Ext.C67_panic_violated"
   ],
   "note": "Proved for well-formed sections whose names are in the BTF; CO-RE kind 12 (type matches) is outside. Refuted: with records larger than this version's structures the kernel is told the object's record size but given shorter records; a name not in the BTF, or records announced too short, panic (and nothing else does)."
  },
  {
   "property": "C68",
   "status": "partial",
   "theorems": [
    "Verif.Attach.Xdp.C68_attached",
    "Verif.Attach.Xdp.C68_attach_failed",
    "Verif.Attach.Xdp.C68_detached_netlink",
    "Verif.Attach.Xdp.C68_detached_link",
    "Verif.Attach.Xdp.C68_round_trip",
    "Verif.Attach.Xdp.C68_replaced_link",
    "Verif.Attach.Xdp.C68_interface_partial",
    "Verif.Attach.Xdp.C68_replace_netlink_violated",
    "Verif.Attach.Xdp.C68_detach_other_violated",
    "Verif.Attach.Xdp.C68_nul_violated",
    "Verif.Attach.Xdp.C68_old_kernel",
    "Verif.Attach.Xdp.C68_error",
    "Verif.Attach.Xdp.C68_replace_failed",
    "Verif.Attach.Xdp.C68_replaced_netlink"
   ],
   "note": "Proved over a specification of the kernel's XDP places. Refuted: replacing the program of a netlink link always fails (the request asks both for 'only if empty' and for 'replace'); before Linux 5.7 detaching removes whatever program is in the place; a NUL in the interface name panics."
  },
  {
   "property": "C69",
   "status": "partial",
   "theorems": [
    "Verif.Attach.Tcx.C69_order_partial",
    "Verif.Attach.Tcx.C69_order_failed",
    "Verif.Attach.Tcx.C69_detached",
    "Verif.Attach.Tcx.C69_round_trip",
    "Verif.Attach.Tcx.C69_replaced",
    "Verif.Attach.Tcx.C69_default",
    "Verif.Attach.Tcx.C69_stale_order_violated",
    "Verif.Attach.Tcx.C69_fd_zero_violated",
    "Verif.Attach.Tcx.Filter.C69_filter_attached",
    "Verif.Attach.Tcx.Filter.C69_filter_detached",
    "Verif.Attach.Tcx.Filter.C69_filter_round_trip",
    "Verif.Attach.Tcx.Filter.C69_filter_replaced",
    "Verif.Attach.Tcx.Filter.C69_filter_forgotten_violated"
   ],
   "note": "Filters over netlink are proved over a specification of filters by interface, parent, priority and handle; a filter that could not be removed is forgotten. Orders are proved over a specification of the kernel's list of classifiers, when the link or program the order was made from is still open under its descriptor and that is not 0 for programs. Refuted: the order keeps only a descriptor number, so after the link is closed it can mean another link; a program with descriptor 0 means first or last."
  },
  {
   "property": "C70",
   "status": "partial",
   "theorems": [
    "Verif.Attach.Fd.C70_attached",
    "Verif.Attach.Fd.C70_failed",
    "Verif.Attach.Fd.C70_neighbours",
    "Verif.Attach.Fd.C70_mode_partial",
    "Verif.Attach.Fd.C70_round_trip",
    "Verif.Attach.Fd.C70_detached_link",
    "Verif.Attach.Fd.C70_detached_prog_partial",
    "Verif.Attach.Fd.C70_mode_violated",
    "Verif.Attach.Fd.C70_single_violated",
    "Verif.Attach.Fd.C70_detach_other_violated",
    "Verif.Attach.Fd.C70_limit"
   ],
   "note": "Proved over a specification of the kernel's lists per object and hook. Modes are proved for kernels before 5.7. Refuted: on kernels with links AllowOverride and AllowMultiple are always refused, and Single does not keep other programs out; before 5.7 the link of a replaced program detaches the program that replaced it."
  },
  {
   "property": "C71",
   "status": "partial",
   "theorems": [
    "Verif.Attach.Load.C71_request",
    "Verif.Attach.Load.C71_refused",
    "Verif.Attach.Load.C71_history",
    "Verif.Attach.Load.C71_tracing",
    "Verif.Attach.Load.C71_btf_read",
    "Verif.Attach.Load.C71_extension_partial",
    "Verif.Attach.Load.C71_attach_to",
    "Verif.Attach.Load.C71_license",
    "Verif.Attach.Load.C71_version",
    "Verif.Attach.Load.C71_extension_violated",
    "Verif.Attach.Load.C71_no_btf"
   ],
   "note": "Proved for all answers of the kernel. Record buffers are C67, flags and types per section C24/C25, the retry itself C36. Refuted: loading an extension a second time is refused but changes the target of later calls of attach. A kernel log that is not UTF-8 panics (C36)."
  },
  {
   "property": "C72",
   "status": "partial",
   "theorems": [
    "Verif.Pipe.C72_code_partial",
    "Verif.Pipe.C72_extern_without_btf_violated"
   ],
   "note": "Proved for objects as compilers emit them (two-slot loads, one relocation per offset) whose kernel symbols are in the table of externs, when each symbol referred to names one map (C10), functions a program reaches have distinct addresses (C06) and programs are not called (C08). False without BTF: kernel symbols are then left alone and loads of their addresses give 0. CO-RE relocation comes before and is C19-C21."
  },
  {
   "property": "C73",
   "status": "partial",
   "theorems": [
    "Verif.Loader.C73_refused",
    "Verif.Loader.C73_target",
    "Verif.Loader.C73_history",
    "Verif.Loader.C73_forced_extension_violated"
   ],
   "note": "Proved for the types a program's section says. Refuted for programs turned into extensions by EbpfLoader::extension: the check looks at the section only, so such a program is handed out without the BTF it requires."
  },
  {
   "property": "C74",
   "status": "partial",
   "theorems": [
    "Verif.Loader.C74_programs",
    "Verif.Loader.C74_maps",
    "Verif.Loader.C74_code_partial",
    "Verif.Loader.C74_succeeds"
   ],
   "note": "Programs and maps proved for every object. The code is proved for objects with the properties C72 asks for. Parsing, CO-RE relocation and resolving of externs are functions given with the object (see C06-C21, C64-C67)."
  },
  {
   "property": "C75",
   "status": "partial",
   "theorems": [
    "Verif.Handles.C75_accepted",
    "Verif.Handles.C75_same_map",
    "Verif.Handles.C75_any_kind",
    "Verif.Handles.C75_buffers_partial",
    "Verif.Handles.C75_operations",
    "Verif.Handles.C75_created",
    "Verif.Handles.C75_frames",
    "Verif.Handles.C75_mislabelled_violated",
    "Verif.Handles.C75_reused_pin_violated",
    "Verif.Handles.C75_sock_hash_get_violated"
   ],
   "note": "Proved for typed maps made from a Map of a loaded object or of Map::from_map_data, or created, when the recorded sizes are the kernel's (C58). Refuted: the variants of Map are public, so safe code can call a per-CPU array an array and have the kernel write past the buffer; a map reused by its pin keeps the sizes of the object. SockHash only accepts maps whose lookups the kernel refuses, so its get never succeeds."
  },
  {
   "property": "C76",
   "status": "partial",
   "theorems": [
    "Verif.Probe.C76_attached_partial",
    "Verif.Probe.C76_failed_partial",
    "Verif.Probe.C76_not_loaded",
    "Verif.Probe.C76_cookie",
    "Verif.Probe.C76_names",
    "Verif.Probe.C76_unique",
    "Verif.Probe.C76_definition",
    "Verif.Probe.C76_detached",
    "Verif.Probe.C76_undone",
    "Verif.Probe.C76_removed",
    "Verif.Probe.C76_history_partial",
    "Verif.Probe.C76_ret_offset_violated",
    "Verif.Probe.C76_pid_violated",
    "Verif.Probe.C76_address_violated",
    "Verif.Probe.C76_nul_violated",
    "Verif.Probe.C76_nul_kprobe_violated",
    "Verif.Probe.C76_name_violated",
    "Verif.Probe.C76_inheritable_violated",
    "Verif.Probe.C76_definition_left_violated"
   ],
   "note": "Proved for requests that make sense. Refuted otherwise: on kernels without probe event sources the offset of a return probe is dropped and files such as libstdc++.so.6 cannot be probed; process number 2^32-1 means every process; an empty function name means an absolute address; NUL in a name panics; the descriptor of PerfEvent::attach is inherited over exec; a definition in tracefs is left behind, as it is removed while still in use."
  },
  {
   "property": "C77",
   "status": "partial",
   "theorems": [
    "Verif.Run.C77_run_partial",
    "Verif.Run.C77_contained_partial",
    "Verif.Run.C77_fails",
    "Verif.Run.C77_short",
    "Verif.Run.C77_raw_trace_point",
    "Verif.Run.C77_tracing",
    "Verif.Run.C77_not_loaded",
    "Verif.Run.C77_live_frames",
    "Verif.Run.C77_empty_violated",
    "Verif.Run.C77_size_violated"
   ],
   "note": "Proved over a specification of BPF_PROG_TEST_RUN, for output buffers that are absent or not empty. Refuted: an empty output buffer is given to the kernel with size 0, which means no limit, so safe code has the packet written past the buffer; without a buffer the size written is reported as that of the packet."
  },
  {
   "property": "C78",
   "status": "partial",
   "theorems": [
    "Verif.Attach.Query.C78_listed",
    "Verif.Attach.Query.C78_listed_still",
    "Verif.Attach.Query.C78_lirc",
    "Verif.Attach.Query.C78_device_partial",
    "Verif.Attach.Query.C78_answers",
    "Verif.Attach.Query.C78_tcx",
    "Verif.Attach.Query.C78_tcx_unchanged",
    "Verif.Attach.Query.C78_tcx_order",
    "Verif.Attach.Query.C78_device_violated",
    "Verif.Attach.Query.C78_device_failed_violated"
   ],
   "note": "Proved for infrared devices and classifiers, and for control groups as long as the answer is kept. Refuted for control groups: CgroupDevice::query returns links that detach when dropped, so asking which device programs are attached detaches those attached without a link, also of other processes; a program that goes away while asking makes it fail after having detached the ones before."
  },
  {
   "property": "C79",
   "status": "partial",
   "theorems": [
    "Verif.Ebpf.Args.C79_argument_partial",
    "Verif.Ebpf.Args.C79_no_argument_partial",
    "Verif.Ebpf.Args.C79_result_partial",
    "Verif.Ebpf.Args.C79_btf_argument_partial",
    "Verif.Ebpf.Args.C79_exit_result_partial",
    "Verif.Ebpf.Args.C79_ids",
    "Verif.Ebpf.Args.C79_arm_violated",
    "Verif.Ebpf.Args.C79_arm_count_violated",
    "Verif.Ebpf.Args.C79_mips_violated",
    "Verif.Ebpf.Args.C79_wide_violated"
   ],
   "note": "Proved for 64-bit machines and types of at most 64 bits, over a specification of the kernels' register frames and C calling conventions. Refuted: on 32-bit ARM and MIPS the registers are read as eight-byte words, so arguments are taken from other registers; arg(4) on ARM is not None; 128-bit types get one register only."
  },
  {
   "property": "C80",
   "status": "proved",
   "theorems": [
    "Verif.Ebpf.Mem.C80_memmove",
    "Verif.Ebpf.Mem.C80_memcpy",
    "Verif.Ebpf.Mem.C80_memset"
   ],
   "note": ""
  },
  {
   "property": "C81",
   "status": "partial",
   "theorems": [
    "Verif.Ebpf.Read.C81_bounds",
    "Verif.Ebpf.Read.C81_string",
    "Verif.Ebpf.Read.C81_string_long",
    "Verif.Ebpf.Read.C81_string_fault",
    "Verif.Ebpf.Read.C81_length_bounded",
    "Verif.Ebpf.Read.C81_packet_bytes",
    "Verif.Ebpf.Read.C81_packet_load_partial",
    "Verif.Ebpf.Read.C81_packet_store_partial",
    "Verif.Ebpf.Read.C81_load_offset_violated",
    "Verif.Ebpf.Read.C81_store_offset_violated"
   ],
   "note": "Proved over specifications of the kernel's helpers; load_bytes for every offset. Refuted for load and store: the offset is cut to 32 bits, so an offset of 2^32 or more reads or overwrites bytes elsewhere in the packet and reports success."
  },
  {
   "property": "C82",
   "status": "partial",
   "theorems": [
    "Verif.Ebpf.Decl.C82_legacy",
    "Verif.Ebpf.Decl.C82_btf_partial",
    "Verif.Ebpf.Decl.C82_pinned",
    "Verif.Ebpf.Decl.C82_opened",
    "Verif.Ebpf.Decl.C82_created",
    "Verif.Ebpf.Decl.C82_matrix_violated"
   ],
   "note": "Proved for every map type and every size below 4 GiB, from the bytes or the BTF members of the declaration to the typed map opened. Refuted for BTF declarations with values that are arrays of arrays: the loader takes the size of the inner array for the element count, creates the map with values that are too small, and the typed map does not open it. What the compiler emits for a declaration is taken as written by btf_map_def!."
  },
  {
   "property": "C83",
   "status": "partial",
   "theorems": [
    "Verif.Ebpf.Ring.C83_delivered_partial",
    "Verif.Ebpf.Ring.C83_drained_partial",
    "Verif.Ebpf.Ring.C83_woken_partial",
    "Verif.Ebpf.Ring.C83_entry",
    "Verif.Ebpf.Ring.C83_output_completes",
    "Verif.Ebpf.Ring.C83_results"
   ],
   "note": "Proved for every history over the ring buffer model of C01-C03, with entries as pointers into the ring. Partial as C01-C03 are: rings up to 1 GiB, positions that do not wrap at 2^64, the kernel's reserve as one step. What the verifier rejects (entries neither submitted nor discarded) is not modelled."
  },
  {
   "property": "C84",
   "status": "partial",
   "theorems": [
    "Verif.Ebpf.Perf.C84_written",
    "Verif.Ebpf.Perf.C84_read",
    "Verif.Ebpf.Perf.C84_flags",
    "Verif.Ebpf.Perf.C84_other_cpu_violated"
   ],
   "note": "Proved for every history of opening and output, up to the events handed to callbacks. Refuted for the documented promise of open: an output at the index of another CPU than the one the program runs on is refused by the kernel, the library drops the error, and the buffer neither gets it nor counts it as lost."
  },
  {
   "property": "C85",
   "status": "partial",
   "theorems": [
    "Verif.Info.C85_program_info",
    "Verif.Info.C85_map_info",
    "Verif.Info.C85_from_pin_partial",
    "Verif.Info.C85_loaded_programs",
    "Verif.Info.C85_loaded_maps",
    "Verif.Info.C85_history_partial",
    "Verif.Info.C85_loaded_at",
    "Verif.Info.C85_memory_locked",
    "Verif.Info.C85_unknown_map_type_violated",
    "Verif.Info.C85_from_pin_violated",
    "Verif.Info.C85_failed_probe_violated"
   ],
   "note": "Proved over worlds in which programs and maps come and go between any two calls. Refuted in three places: a probe that fails once (no right to load, or any other error) is remembered for the life of the process, so that map_ids and gpl_compatible give None for every program afterwards; a path with a zero byte panics; the error for an unknown map type carries 34 instead of the type. memory_locked panics from 4 GiB on."
  },
  {
   "property": "C86",
   "status": "partial",
   "theorems": [
    "Verif.Features.C86_maps",
    "Verif.Features.C86_maps_sound",
    "Verif.Features.C86_programs_partial",
    "Verif.Features.C86_programs_sound_partial",
    "Verif.Features.C86_helpers",
    "Verif.Features.C86_helpers_sound",
    "Verif.Features.C86_features",
    "Verif.Features.C86_features_sound",
    "Verif.Features.C86_remembered",
    "Verif.Features.C86_btf_kinds",
    "Verif.Features.C86_limit",
    "Verif.Features.C86_limit_untouched",
    "Verif.Features.C86_refusal_reported",
    "Verif.Features.C86_second_limit_violated",
    "Verif.Features.C86_undescribed_violated"
   ],
   "note": "Proved for every kernel that checks in Linux's order, for all 33 map types, all program types, all functions and features. For programs the kernel must describe its own functions (BTF): otherwise LSM programs for cgroups and tracing programs are reported as supported although they cannot be loaded or attached (refuted). A process that may raise the limit of locked memory only up to its hard limit does not get it raised at all (refuted)."
  },
  {
   "property": "C87",
   "status": "partial",
   "theorems": [
    "Verif.Shared.C87_hash",
    "Verif.Shared.C87_array",
    "Verif.Shared.C87_percpu",
    "Verif.Shared.C87_queue",
    "Verif.Shared.C87_told",
    "Verif.Shared.C87_conserved",
    "Verif.Shared.C87_bloom",
    "Verif.Shared.C87_trie",
    "Verif.Shared.C87_devices_partial",
    "Verif.Shared.C87_devices_violated",
    "Verif.Shared.C87_sockets"
   ],
   "note": "Proved for all sequences of operations of both sides, for a kernel that performs one operation after another. For device maps a chained program must not have descriptor 0, which is dropped without a word (refuted). Concurrent writes through pointers into a value, LRU eviction, and the maps of sockets, stacks and local storage beyond what is named are not modelled."
  },
  {
   "property": "C88",
   "status": "partial",
   "theorems": [
    "Verif.Nested.C88_one_table",
    "Verif.Nested.C88_no_leak"
   ],
   "note": "Proved for all histories with arrays as inner maps, for a kernel that performs one operation after another and processes that do not interfere: between reading an id and opening it nobody else replaces the map. Inner maps of other kinds and interference are the matter of C103."
  },
  {
   "property": "C89",
   "status": "partial",
   "theorems": [
    "Verif.Pins.C89_pins_partial",
    "Verif.Pins.C89_stays",
    "Verif.Pins.C89_foreign_violated",
    "Verif.Pins.C89_again_violated",
    "Verif.Pins.C89_info_violated",
    "Verif.Pins.C89_kind_violated",
    "Verif.Pins.C89_nul_violated"
   ],
   "note": "Proved for all histories in which no program is unpinned after a failed attempt to pin or unpin it (or when it came from from_program_info) and files are opened as what they are by paths without zero bytes; that a pinned object stays is proved for all histories. The exceptions are refuted: a refused pin is noted, and unpin then removes a file of somebody else; a failed unpin forgets the path; from_pin checks neither kind nor program type; from_pin of programs and links panics on a zero byte. A link whose pin or unpin fails is dropped, as its signature says."
  },
  {
   "property": "C90",
   "status": "partial",
   "theorems": [
    "Verif.Externs.C90_collected_partial",
    "Verif.Externs.C90_resolved_partial",
    "Verif.Externs.C90_refused",
    "Verif.Externs.C90_accepted",
    "Verif.Externs.C90_typedef_violated",
    "Verif.Externs.C90_order_violated"
   ],
   "note": "Collecting, resolving against kernel BTF and fixing up the section are each proved for all inputs. Missing, and refuted: a variable whose type in the kernel is a typedef or qualified is refused although the types are the same (resolve_extern_variable compares the kinds before looking through typedefs), so Fits in C90_resolved_partial asks for equal kinds too; with two symbols of one name the iteration order of a hash map decides whether the extern is weak, so C90_collected_partial says only that some symbol of the name is as weak as the extern. C90_resolved_partial takes the object's BTF at the time of resolving as given; that fixing up the section keeps types the same is in C90_accepted, the other sanitizing steps in between are not composed. Sizes are bounded so that 32-bit offsets do not overflow. Only the BTF of the kernel itself is searched, as in the code, not that of modules."
  },
  {
   "property": "C91",
   "status": "partial",
   "theorems": [
    "Verif.Macros.C91_accepted_partial",
    "Verif.Macros.C91_order",
    "Verif.Macros.C91_program",
    "Verif.Macros.C91_context",
    "Verif.Macros.C91_map",
    "Verif.Macros.C91_map_section",
    "Verif.Macros.C91_ignored_violated"
   ],
   "note": "Which tokens are accepted and what they stand for is proved as an equivalence for every macro, and the rest follows for every accepted attribute, through the section name (C54). Missing, and refuted: that every accepted argument counts. uprobe with a function but no path, and kprobe with an offset but no function, are accepted and the argument is dropped; the specification Asks used by C91_accepted_partial lets them. The Rust tokenizer and the parsing of the item below the attribute are not modelled; that generated wrappers compile is not claimed."
  },
  {
   "property": "C92",
   "status": "proved",
   "theorems": [
    "Verif.SockFilter.C92_histories",
    "Verif.SockFilter.C92_stays",
    "Verif.SockFilter.C92_group",
    "Verif.SockFilter.C92_ungroup",
    "Verif.SockFilter.C92_apart"
   ],
   "note": "C92_histories is a refinement over all histories, from code working with descriptor numbers on a model of Linux (sockets, groups, filter lock, SO_REUSEPORT, faults) to a specification that speaks of programs and sockets; the other theorems are stated of the code in any reachable state. That sockets stay in the list of sockets when the last descriptor is closed is a simplification: nothing can be done to them any more."
  },
  {
   "property": "C93",
   "status": "partial",
   "theorems": [
    "Verif.LogRun.C93_logged_partial",
    "Verif.LogRun.C93_flushed_partial",
    "Verif.LogRun.C93_woken_partial",
    "Verif.LogRun.C93_placed",
    "Verif.LogRun.C93_carried_out",
    "Verif.LogRun.C93_one_ends_all_violated"
   ],
   "note": "The last sentence is false: a statement that shows a &[u8; 4], &[u8; 6] or &[u8; 16] with {:x} compiles and is sent, flush panics at it, and nothing is logged any more for anyone (C93_one_ends_all_violated). All else is proved, over all schedules of single bytes written, of the kernel's commits and of the reader's loads and stores; messages are told of statements other than those (Plain). The logger making no step after a panic is a simplification: nothing in the crate catches it."
  },
  {
   "property": "C94",
   "status": "partial",
   "theorems": [
    "Verif.Tool.C94_command_partial",
    "Verif.Tool.C94_result",
    "Verif.Tool.C94_joined_violated",
    "Verif.Tool.C94_clang_violated",
    "Verif.Tool.C94_relative_violated"
   ],
   "note": "What bindgen reads is proved for all flags it can read itself; how it reads a command line is a specification with the options that take values left open. Refuted: --ctypes-prefix=x is not recognised, both prefixes are passed and bindgen refuses; the word --ctypes-prefix among the arguments for clang is taken away; a header is copied to a temporary directory, away from the files it includes."
  },
  {
   "property": "C95",
   "status": "partial",
   "theorems": [
    "Verif.Jump.C95_histories",
    "Verif.Jump.C95_stays_partial",
    "Verif.Jump.C95_jump",
    "Verif.Jump.C95_ends",
    "Verif.Jump.C95_indices",
    "Verif.Jump.C95_stays_violated",
    "Verif.Jump.C95_indices_violated"
   ],
   "note": "Entries stay as long as the table is held by a handle or a pin. Refuted: when the last handle of a table is dropped Linux empties it, although an attached program uses it still (the handle taken in the documented example goes that way at the end of its scope); indices is documented to give the indices that point to a program but gives all of them."
  },
  {
   "property": "C96",
   "status": "partial",
   "theorems": [
    "Verif.Helpers.C96_printed",
    "Verif.Helpers.C96_too_many",
    "Verif.Helpers.C96_command",
    "Verif.Helpers.C96_read",
    "Verif.Helpers.C96_write",
    "Verif.Helpers.C96_compare_partial",
    "Verif.Helpers.C96_compare_terminated",
    "Verif.Helpers.C96_formats_violated",
    "Verif.Helpers.C96_missing_violated",
    "Verif.Helpers.C96_compare_violated"
   ],
   "note": "Refuted: a byte array without NUL is said to be equal to every longer string that begins with it; the macro is documented to take the formats of printk but the helpers refuse some; with fewer arguments than directives, registers left over are printed and nobody is told. Not modelled: directives for strings and for pointers other than %px."
  },
  {
   "property": "C97",
   "status": "partial",
   "theorems": [
    "Verif.Socks.C97_histories",
    "Verif.Socks.C97_set",
    "Verif.Socks.C97_clear",
    "Verif.Socks.C97_stays",
    "Verif.Socks.C97_open",
    "Verif.Socks.C97_failed",
    "Verif.Socks.C97_redirect",
    "Verif.Socks.C97_lookup",
    "Verif.Socks.C97_select",
    "Verif.Socks.C97_owned_violated",
    "Verif.Socks.C97_indices_violated"
   ],
   "note": "Refuted: a socket given to SockHash::insert by value is closed at the end of the call and so is not in the map, though the call succeeded; indices gives all indices, not those that point to a socket."
  },
  {
   "property": "C98",
   "status": "partial",
   "theorems": [
    "Verif.Mapped.C98_no_fault",
    "Verif.Mapped.C98_given_back",
    "Verif.Mapped.C98_mapped",
    "Verif.Mapped.C98_nothing_else",
    "Verif.Mapped.C98_apart",
    "Verif.Mapped.C98_failed",
    "Verif.Mapped.C98_item_partial",
    "Verif.Mapped.C98_ring",
    "Verif.Mapped.C98_pages_partial",
    "Verif.Mapped.C98_page_count",
    "Verif.Mapped.C98_reads",
    "Verif.Mapped.C98_opens",
    "Verif.Mapped.C98_reused_violated",
    "Verif.Mapped.C98_pages_violated"
   ],
   "note": "Refuted: a ring buffer that is larger than its definition says (a pinned map that is reused) is opened without error and read in the wrong places; a perf buffer of 2^52 pages is opened without error and has no place for data."
  },
  {
   "property": "C99",
   "status": "partial",
   "theorems": [
    "Verif.Ctx.C99_skb",
    "Verif.Ctx.C99_skb_set",
    "Verif.Ctx.C99_xdp",
    "Verif.Ctx.C99_reuseport",
    "Verif.Ctx.C99_msg",
    "Verif.Ctx.C99_ops",
    "Verif.Ctx.C99_reply_partial",
    "Verif.Ctx.C99_port_partial",
    "Verif.Ctx.C99_flags_partial",
    "Verif.Ctx.C99_flags_error",
    "Verif.Ctx.C99_push",
    "Verif.Ctx.C99_pop",
    "Verif.Ctx.C99_push_pop",
    "Verif.Ctx.C99_rewrites",
    "Verif.Ctx.C99_kept",
    "Verif.Ctx.C99_udp",
    "Verif.Ctx.C99_succeeds",
    "Verif.Ctx.C99_translate",
    "Verif.Ctx.C99_reply_violated",
    "Verif.Ctx.C99_port_violated",
    "Verif.Ctx.C99_flags_violated",
    "Verif.Ctx.C99_offset_violated"
   ],
   "note": "Refuted: after a reply is set, the first argument is the reply; the port of the peer is not its number (network byte order in four bytes) while the local port is; a call that fails for an unknown flag sets the others; an offset of 2^32 and more is cut and another checksum changed."
  }
 ]
}