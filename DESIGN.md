# Formal model of aya-rs/aya in Lean 4: design

Properties are listed in `properties.jsonl` (C01 ...). Their status and theorem names are in
`MANIFEST.json`. Lean sources are under `lean/Verif`. Each area has

* `<Area>/Model.lean`: the code, function by function, every definition citing file and lines in
  `/repo` (paths relative to it), with simplifications stated in the comment;
* `<Area>/Spec.lean`: the vocabulary in which properties are stated, written without looking at the
  model's helpers (absent where the statement needs no vocabulary);
* `<Area>/Lemmas.lean`: helper lemmas, no meaning of their own;
* `<Area>/Props.lean`: the property theorems, named `C<nn>_...`, each followed by `example`s that
  show a concrete non-trivial case meeting its hypotheses (or, for a refuted claim, the witness).

## Conventions of the model

* Rust functions become total Lean functions. `&mut` becomes a returned new value. `Result` becomes
  `Except`. A Rust panic (index out of range, `unwrap`, overflow in checked arithmetic,
  `unreachable!`, `todo!`) is an explicit error value `panic`, so "does not panic" is a statement
  about results and not an artefact of totalisation.
* Fixed-width integers are `Nat`/`Int` together with an explicit wrap (`% 2^n`) where the code can
  wrap, `BitVec`/`UInt8` where bits matter. Hypotheses such as `x < 2^32` are the Rust type bounds.
* The kernel and the file system are the environment. They are parameters (oracles) where a property
  must hold for every behaviour of theirs, and explicit models (ring buffer producer, perf writer,
  per-CPU layout, id table ...) where a property is about the interaction. Environment models are
  assumptions and are listed in the trusted base.
* A claim that is false of the code is kept in `properties.jsonl`, its negation is proved from a
  concrete witness (`C<nn>_..._violated` ) and the part that holds is proved as `..._partial`.

## Plan per property

| id | modelled | how it is proved |
|----|----------|------------------|
| C01 | `ring_buf.rs` consumer as a small-step machine (one step per atomic load/store) interleaved with a kernel producer (reserve, submit, discard); ring memory as bytes addressed modulo the size | invariant over all interleavings relating delivered items, consumer position and the producer's record history |
| C02 | same machine, with the item held between `next` and drop | same invariant: producer writes only between producer position and consumer position + size |
| C03 | store-buffer (TSO style) variant of the machine: the consumer position store is delayed until a fence or an arbitrary later flush | invariant over all interleavings of the store-buffered machine |
| C04, C05 | `try_fold` over a byte ring, kernel writer as the environment | induction on the record list; batches by composition |
| C06, C07, C09 | `FunctionLinker` (fuelled recursion, fuel proved sufficient) | invariant of the link state (prefix growth, every linked function's copy in place), by induction on the recursion |
| C08 | `relocate_calls` as a fold over an arbitrary order | counterexample object; independence when no program is a callee |
| C10, C11, C12 | `relocate_maps`, `patch_extern_relocations` on instruction lists | frame and effect theorems by induction on the relocation list; panic witness |
| C13 | writer and reader of all BTF kinds over bytes | round trip by induction on the type list |
| C14 | `fixup_and_sanitize` per type | case analysis per kind, induction over the list |
| C15 | `resolve_type` loop of 32 | induction on the loop |
| C16 | `type_size` loop | counterexample for nested arrays, partial theorem for at most one array level |
| C17 | `string_at` with slices that can panic | counterexample with inconsistent header, partial theorem for consistent headers |
| C18 | `compute_field_relocation`, memory as bytes, evaluation of load/shift/shift | bit-level arithmetic over all memories |
| C19 | `apply`, `poison_insn` | frame and effect theorems |
| C20 | `AccessSpec::new`, `match_candidate`, `match_member` on type graphs | soundness of the computed offset w.r.t. an inductive "path has offset" relation |
| C21 | candidate loop of `relocate_btf_functions` | agreement and order independence by induction |
| C22 | `ProgramSection::from_str` on strings | functional correctness against a table of section patterns |
| C23 | `patch_map_data` | frame and effect theorems |
| C24 | `copy_instructions` | round trip |
| C25 | `sanitize` | pointwise characterisation |
| C26 | `parse_map_def` | effect for every length |
| C27 | `KernelVersion` | order lemmas, code against `LINUX_VERSION_CODE` clamp; witness for 4.4/4.9 |
| C28 | `parse_cpu_ranges` over strings | round trip from rendered range lists, rejection |
| C29 | `PerCpuValues` memory layout | round trip for all sizes |
| C30 | `MapKeys`/`MapIter` over a `get_next_key` oracle | induction on the kernel's order; arbitrary oracle for the error part |
| C31 | `adjust_to_page_size` | least power-of-two multiple; overflow witness above 2^31 |
| C32 | `check_bounds` and the array-like accessors, syscalls as a trace | decision logic |
| C33 | `finalize` as a syscall trace with arbitrary results | trace properties |
| C34, C35 | `Links`, link wrapper, `ProgramData` as a state machine over a kernel attachment set | invariant by induction over operations |
| C36 | `retry_with_verifier_logs` over an oracle | induction on retries |
| C37 | `iter_obj_ids` over an id table | induction |
| C38 | `TcHandle`, `tc_handler_make` | bit arithmetic |
| C39, C40, C41 | netlink writer, attribute iterator, `recv` | round trip and totality by induction |
| C42, C43, C45 | encoder (macro expansion), `log_buf`, formatters | round trip by induction on the argument list; witness for hex on fixed-size arrays |
| C44 | format string parser | round trip with a printer; acceptance witness |
| C46 | `symbol_translated_address` | arithmetic against a section-to-file mapping |
| C47 | `resolve_points` | induction on the points |
| C48, C49 | `ProcMapEntry::parse`, library search | round trip with the kernel's line format; soundness of the match |
| C50 | kallsyms reader | induction on lines |
| C51 | `parse_kernel_version_string`, source selection | rendering round trip; precedence by case analysis |
| C52 | `parse_kernel_symbols` | induction over lines; witness for module suffixes |
| C53 | `bytes_of_bpf_name`, kernel truncation, reading back | round trip for every name |
| C54 | section names printed by the attribute macros, for every macro and option | composition with the model of `ProgramSection::from_str` |
| C55 | `parse_text_section`, `parse_program` | tiling of the section by induction over sorted symbols; panic witness |
| C56 | `HashMap`, `Queue`, `Stack` handles over an explicit kernel table | refinement, by induction over operation sequences |
| C57, C58 | map part of `EbpfLoader::load`, `MapData` constructors | call sequence theorems for every kernel; witness for reused pins |
| C59, C60 | `netlink_find_filter_with_name`, detaching, reply of attaching | induction over replies; witness with a filter of another kind |
| C61 | `id_by_type_name_kind` | soundness and completeness by induction over the table |
| C62 | `UProbe::attach`, probe creation, perf links, over a trace of calls with arbitrary answers | kernel state computed from the trace; invariant over histories |
| C63 | target resolution, `LdSoCache` parser and lookup | decision logic; round trip with the file format |
| C64 | remaining CO-RE relocation kinds | characterisation against the C meaning; witnesses |
| C65, C66 | BTF and legacy map sections, data sections, `Object::parse` loop | both directions against an independent description of a declaration; frame theorem for the set of maps |
| C67 | `BtfExt::parse`, record parsers, buffers for `BPF_PROG_LOAD` | round trip with the documented format; panic causes characterised for arbitrary bytes |
| C68 | `Xdp` attach, detach, replace over any system | specification of the kernel's places per interface; frame and round-trip theorems; witnesses |
| C69 | `SchedClassifier` attach with `LinkOrder`, and over netlink | specification of the kernel's list (`mprog.c`) and of its filters (`cls_api.c`); placement stated with splits of the list |
| C70 | attach and detach of the programs whose target is a descriptor, over any system | specification of the kernel's lists per object and hook, with modes and hierarchy; frame, neighbour and round-trip theorems; witnesses |
| C71 | `load_program`, `unload_program`, tracing and extension loads, license and version | the request stated field by field for every attempt; histories by induction; BTF reading for every size |
| C72 | the four stages of `EbpfLoader::load` that change code, composed | per-instruction specification of the final code; composition of the theorems of the stages, with non-interference shown instruction by instruction |
| C73 | `EbpfLoader::load`: the object's BTF, the target BTF and its cache | decision stated outright per load; many loads by induction over the objects |
| C74 | `EbpfLoader::load` as a whole, `parse_map` | composition of C57 (maps), C72 (code) and C71 (request); tables of kinds compared with the kernel's numbering |
| C75 | typed maps: `TryFrom<Map>`, `new`, `create`, the buffers of every operation | a specification of what the kernel copies per map type and command; case analysis over the typed maps, comparing sizes |
| C76 | kernel and user probes, trace points, perf events, raw trace points: text in tracefs and `perf_event_attr` fields | a specification of what the kernel makes of attributes and of lines in `kprobe_events`; parsing back the text the code writes; invariant over histories of attaching and detaching |
| C77 | `TestRun::test_run`: the attributes and what the kernel reads and writes at the addresses | memory as a function from addresses; a specification of `BPF_PROG_TEST_RUN`; frame and content of the buffers |
| C78 | `query`, `CgroupDevice::query`, `LircMode2::query`, `SchedClassifier::query_tcx` | lists that change with time for the loop; invariant over the descriptors opened so far for the links; composition with C69 for the order |
| C79 | `arg`, `ret`, `btf_arg`, `raw_tracepoint_arg`, `FExitContext::ret`, `EbpfContext` of the eBPF side, on the register structures of the bindings | the context as bytes; a separate specification of register frames and calling conventions; reading words in either byte order |
| C80 | `memset`, `memcpy`, `memmove` of the eBPF side | memory as a function from addresses; loop invariants forwards and backwards |
| C81 | `read_str_bytes` and its callers, `check_bounds_signed` (as instructions), `SkBuff::{load,load_bytes,store}` | helpers as parameters under a relational specification of the kernel; list arithmetic |
| C82 | `MapDef::new`, `map_constructors!` and all constructors of `maps`, `btf_map_def!` and all types of `btf_maps` | bytes or BTF members of a declaration, fed to the models of C26, C65, C57 and C75; a separate table of sizes and typed maps |
| C83 | `RingBuf` of `aya-ebpf` (both variants) over the kernel and reader of C01-C03 | a simulation: outputs as their writers know them against the kernel's records; pointers of open entries are unique |
| C84 | `PerfEventArray` and `PerfEventByteArray` of `aya-ebpf`, `PerfEventArray::open` | invariant over histories with one buffer per opening; composed with C05 |
| C85 | `ProgramInfo`, `MapInfo`, `loaded_programs`, `loaded_maps`, `boot_time`, `get_fdinfo`, the two probes with their caches | worlds indexed by the number of calls made; invariants of the listing and of the caches |
| C86 | the probes of `sys/feature_probe.rs` and `sys/bpf.rs`, `FeatureProbe`, `with_raised_rlimit_retry` | kernels as machines with an own table of what each type takes; the answer for every type; invariant of the remembered answers; induction over the calls |
| C87 | the map functions of `aya-ebpf` (through its helper calls) next to the typed maps of `aya` (`Maps`), both on one kernel map | refinement: one kernel state for each kind of map, equal to a mathematical table after every operation, by induction over the operations; the kernel's maps are written from Linux, the tables from the documentation |
| C88 | `ArrayOfMaps`, `HashOfMaps`, creation and opening by id of inner arrays, and the map functions of programs, on a kernel with descriptors, ids and references | refinement: slots and handles as references to arrays; an invariant relates descriptors, ids and references to them, by induction over the operations |
| C89 | `pin`, `unpin`, `from_pin`, `from_program_info`, `unload` and drop of programs, `pin` and `from_pin` of maps, pinned links, on a kernel with objects, files and descriptors whose calls may fail | refinement of a system in which handles and files simply stand for objects, by induction over histories with other processes in between; the exceptions are refuted with general witnesses |
| C90 | collecting externs from BTF and symbols, resolving typed ones against kernel BTF, `fixup_ksyms_datasec` | soundness of each step for all BTF, using C15, C17, C61 and C64; the fixup loop by an invariant on what each type may become; two counterexamples |
| C91 | `Args` parsing and the `parse` and `expand` functions of all program macros, `map`, `btf_map` | parser against a grammar (`Written`) in both directions, taking arguments out by permutation arguments, then an equivalence per macro; section names by C54; one counterexample |
| C92 | `SocketFilter`, `ReusePortSocketFilter`, `SkReuseport`: conversion, load, unload, drop, attach, detach; `setsockopt` of Linux for the four options | refinement of histories to programs and sockets (descriptors matched to objects, injective), then invariants of the specification: each socket named once, every group with a place for its selector |
| C93 | The statement generated by the log macros as a machine writing byte by byte, any number of them at once, `EbpfLogger::flush` reading; the ring is that of C83, records and texts are those of C42 | invariant over all schedules tying each statement to its ring record and to what it has still to write; composed with C83 (delivery) and C42 (texts) |
| C94 | `generate` of aya-tool with the commands as parameters; how bindgen reads its command line is the specification | induction over the reading of the user's flags; outcome by cases as an equivalence |
| C95 | `ProgramArray` in user space and in programs over a Linux with tables, use counts, descriptors, pins and programs at work | refinement to a promise without descriptors, by induction over histories; invariants for entries and tail calls; two counterexamples |
| C96 | the helper wrappers of programs over the helpers of Linux, with a reader of printk formats | round trip of formats by induction over their pieces; decision logic for the rest; three counterexamples |
| C97 | socket maps of process and programs over a model of sockets, descriptors and maps of Linux | refinement of histories to maps from keys to sockets by name, invariants on top; decision logic for programs; two counterexamples |
| C98 | mappings, ring buffers and perf buffers with every access by address, over a model of address space, descriptors and events | invariant over histories: what is held is what live handles hold; arithmetic for bounds; two counterexamples |
| C99 | contexts as loads and stores at offsets that follow from the generated structures, over the kernel's own offsets; packets with the helpers for checksums | offsets computed; one's complement arithmetic modulo 65535, induction over sequences of rewrites; four counterexamples |
| C100 | storage maps and arrays of cgroups of the process and of programs over a kernel with objects, cells of memory and descriptors | simulation of a specification without cells and descriptors, frame lemmas, induction over histories; a counterexample |
| C101 | maps of devices, CPUs and sockets of the process and of programs over a kernel with interfaces, sockets, programs and descriptors | a book of what the calls gave agrees with the kernel, by induction over histories; five counterexamples |
| C102 | typed links, FdLink, PinnedLink and iterator files over a kernel with descriptors, pinned files and attachments | the code refines a machine without descriptors, by induction over histories; six counterexamples |
| C103 | `get`, `set` and `insert` of maps of maps as modelled for C88, on a kernel with others at work between the calls and inner maps of any kind | invariant over everything others can do (a map nobody refers to stays gone, live ids are distinct), then cases of the calls; two counterexamples, one for every number of ids by induction |
| C104 | any number of copies of the consumer of C01-C03 over one shared memory and consumer position, each with its own store buffer | simulation of readers that take turns by one reader, and of each reader in the first lap by a reader alone, then C01 and C02; invariant over all schedules for the bounds; five counterexamples as concrete runs |
| C105 | `init_from_id_with_logger` call by call over the world of C85 with what Linux lets a process map | induction over the search with fuel and a bound on ids; the world may change at each call; counterexamples as general theorems or concrete worlds |
| C106 | `build_ebpf` and `emit_bpf_target_arch_cfg` over an environment, files and a cargo that are parameters; its streams as a system of a process and two threads with bounded pipes | the command line is read back by an independent parser; induction over packages and copies; invariant and decreasing measure over all schedules of the streams |
| C107 | `StackTraceMap` over a kernel whose programs and readers each work in two steps, with an arbitrary hash | invariant over all interleavings: every bucket, held or pending stack was taken; a second invariant for one bucket whose calls take turns; induction over the iteration |
| C108 | the code the log macros generate, as statements over a fragment of Rust with scopes, effects, `?` and `return` | the scope in the closure agrees with the user's outside the macro's names (induction over the generated statements); composition with C42 and C44 |
| C109 | the list of links with the actions of others between any two system calls, links with counted references | one step of the list is one of five cases, each with what was to be seen at its calls; induction over the steps |
| C110 | the system calls of attach, drop, pin and update of all families, over a kernel whose process ends before any call | rules of a program logic whose assertions hold at each call; an invariant that tells for every reference and program where it is from |
| C111 | `enable_stats`, `run_count`, `run_time` and the documented usage over a kernel that counts per processor and adds up while programs run | counters are the tally of a log of runs (invariant); monotone between readings; runs begun while held are counted |
| C112 | the system calls of loading maps, as programs of single calls, for many processes over a kernel with pins, interleaved at will, with failures and ends | rely and guarantee: a predicate on the rest of a program that holds under whatever others may do (recursion on the program), an invariant of all processes by induction over events |
| C113 | netlink classifier links as parameters, the table of links with its drops, over a kernel with filters, hooks and names of interfaces | decision logic stated outright for all kernel states; composition of attaching, keeping and detaching; counterexamples by evaluation |
| C114 | `depmod` with its buffered writer on a file system with bounded room, `modprobe` with its reader of lines, over trees of files; UTF-8 as an automaton | round trip through the text for all trees; invariant of the writer; counterexamples by evaluation |
| C115 | declarations of maps with constants for sizes, the checks made when compiling, and what the loader asks the kernel for; the rules of the kernel for each map type are a separate specification | decision logic for all declarations, using the rounding of C31; counterexamples for all kernels |
| C116 | the first process of the test machine, the console as text, and the host that reads it and writes the command line of the kernel; what binaries and the kernel print are parameters | round trip of arguments by induction over them; induction over the lines of the console and over the machines |
| C117 | the choice of a kernel from the names on the pages of a site, down to the characters of the names; reading links from HTML is left out | the result against a separate description of names and packages, by sortedness of the candidates; counterexamples |
| C118 | a download as the list of changes that it makes to the disk, a crash as a prefix of them, servers and histories as a separate specification | invariant over histories: the tag on the disk begins that of a version not newer than the file; counterexamples for all numbers of later runs |
| C119 | the archive as a list of bytes, and a reader of it after the documentation of kernels as a separate specification | induction on the entries: one entry followed by anything is read back, with the alignment as arithmetic of lengths |

## Results

`proved`: the whole statement. `partial`: what is missing or false is in the last column; theorems ending in `_violated`
prove that the code breaks the statement.

| id | property | status | remarks |
|----|----------|--------|---------|
| C01 | RingBuf delivers exactly the committed samples, in order | partial | Proved for every ring size 2^3..2^30 and every interleaving; false for a ring of 2^31 bytes (length mask includes the discard bit), refuted by C01_size_2_31_violated. |
| C02 | A held RingBufItem is never overwritten | partial | Same ring sizes as C01. |
| C03 | RingBuf poll/next loop loses no wake-up | partial | Same ring sizes as C01. Store buffer model: the position store may be delayed arbitrarily until a SeqCst fence. |
| C04 | PerfEventArray buffers deliver every record between tail and head | proved | Kernel writer assumed to lay records out as in perf_event.h (Spec.lean). |
| C05 | Stopping a perf read early loses nothing | proved |  |
| C06 | Linked programs call the right function | partial | Proved when the functions reachable from the program have distinct section-relative addresses. False otherwise: linked functions are keyed by address alone, so with two text sections a call can go to the wrong function. |
| C07 | Linking copies each reachable function once and terminates | partial | Termination and success are unconditional; exactly-once needs distinct addresses, as C06. |
| C08 | Linking does not depend on the order in which programs are linked | partial | Proved when no function refers to a program and no two programs share a symbol address. False when one program calls another. |
| C09 | Function and line info follow the code | partial | Needs distinct addresses, as C06, and a line record for the first instruction of each function. |
| C10 | Map references are patched to the right descriptor and nothing else changes | partial | Proved when each reference resolves to one map (Unambiguous). False for section symbols of sections holding several maps, refuted by C10_wrong_map_violated. |
| C100 | Values kept for sockets, inodes and cgroups are those that were stored, and tasks are under the cgroups of arrays | partial | Refuted: what a program writes through a pointer is lost, and the program not told, if the process has replaced the value since; proved while it has not. |
| C101 | Packets are redirected where the maps say | partial | Refuted: a program whose descriptor is 0 is left out silently; setting interface 0 or a queue of size 0 succeeds and removes the entry; a socket given to a map by value is closed by the call and so is not in the map; maps with values of four bytes made by others cannot be opened on kernels that know programs in maps; programs that read entries are rejected on older kernels. Proved for all histories without those. |
| C102 | Links stand for their attachments, whatever they are turned into | partial | Refuted: converting a netlink or BPF_PROG_ATTACH link to an FdLink fails and leaves the program attached with nothing to detach it; a refused conversion, a failed pin, unpin or into_file detaches the program; the FdLink of a trace point becomes a KProbeLink and any FdLink a link of a tracing program; unpin removes the file at the path even if it pins another link by then. Proved otherwise, for all histories. |
| C103 | A map got from a map of maps is the one stored there, also while others change it | partial | Refuted: get fails with ENOENT from opening by id although at every moment a map is stored there, if another is stored in its place after the lookup; and if the id of the map looked up comes again before it is opened (after 2^31 maps on Linux), get hands out a map that was never stored. Proved: these are the only exceptions. The lookup itself is the first call, so that what others do before it is part of the state; values in the inner maps are the matter of C88. |
| C104 | A ring buffer may be opened more than once | partial | Refuted for readers that are read from at the same time: records are delivered to each of them; a held item is overwritten once another reader has released it (through safe code, a shared slice changes); a reader left behind takes the middle of one record for another and delivers what nobody submitted; a late release moves the shared position back, so that every reservation is refused although everything was read; and a reader waits for ever beside a submitted record. Proved: readers that take turns together deliver exactly the submitted records and held items do not change; before the ring was filled once every reader is given every record; and whatever they do, none panics or leaves the mapped area. |
| C105 | Attaching a logger by program id reads the log of that program | partial | Refuted: a failure to list programs (EPERM without privileges) is reported as ProgramNotFound; a failure to open the log (EMFILE) as MapNotFound; after one failed probe every later attempt of the process ends in MapNotFound; and the type of the map is not checked, so that an mmapable array of that name is read as a ring buffer. Proved: under all interference success means a map of that name which the program used; success if nothing gets in the way and the log is a ring buffer; MapNotFound if there is none; ProgramNotFound if the program is not loaded. |
| C106 | Building eBPF crates puts every binary of every package, built for the right target, into OUT_DIR | partial | Refuted: binaries of the same name in two packages overwrite each other although Ok is returned; a binary called aya-build cannot be copied; a line of cargo's error output that is not UTF-8 ends a successful build in a panic; a process left behind by cargo with its streams open makes the build wait for ever; on 32-bit Arm and little-endian POWER and MIPS hosts the emitted architecture is unknown to the crates; c_char is unsigned on 32-bit MIPS, where C has it signed. Proved otherwise, with cargo as a parameter that makes what its command line, read by an independent parser, asks for. |
| C107 | A stack id stands for the stack it was given for | partial | Refuted: two programs asking at once are both given the same id for different stacks; a program asking while a stack of the same bucket is read is given the id of that stack; a reader is told KeyNotFound while another reads the stack; frames from one at address 0 on are missing. Proved: calls for one id made one after another give the stack, whatever calls for other ids do, and under all interleavings what is read is one stack that was taken. Without build ids, on little-endian hosts. |
| C108 | A log statement does nothing to the program but log | partial | Refuted: ? and return in an argument leave a closure of the macro, so that nothing is logged and the function goes on; a type called Header, Field or Argument means the library's in arguments, so that size_of::<Header>() is logged wrong; names the macro uses for itself cannot be logged; surplus arguments and a level given to error! are accepted and dropped; after a text of 64 KiB the rest is not evaluated. Proved otherwise, for a fragment of Rust with calls, blocks, let, ? and return; composed with C42 for what is shown. |
| C109 | The list of links tells the truth and leaves no link behind | partial | Refuted: the list can tell of two links of which one was gone before the other came; a link is kept while it is looked at, so that giving it up does not detach at once, and somebody else can open it meanwhile and keep it. Proved otherwise. |
| C11 | Extern references are patched, weak ones degrade, strong ones fail | partial | No panic proved when calls refer to functions; a call relocated against an untyped kernel variable panics (refuted). |
| C110 | Nothing but what is pinned is left when the process ends | partial | Refuted: programs of sockets and infrared receivers and classifiers attached by netlink are left on all kernels, XDP programs where the kernel takes no link, programs of cgroups before 5.7, PerfEvent programs if another program was started, entries of probes before 4.17; dropping the link of an infrared program does nothing; the documented way to replace a pinned program fails with EEXIST at each start but the first. Proved: nothing else is left. |
| C111 | Statistics measure the runs of a period | partial | Refuted at the edges of the period: a run that began before statistics were enabled is missed, one that began before the first reading is counted with all of its time, one that goes on is counted after the descriptor is dropped; and dropping it does not disable statistics while somebody else has one. Proved: bounds of the differences under all interleavings, and exactness where no run crosses an edge. |
| C112 | Objects with pinned maps can be loaded again and again | partial | Proved for all interleavings, failures and ends of processes: pins are never replaced, processes that have loaded share the pinned maps, maps without data sections keep their contents, and loading alone succeeds again unless a frozen map is pinned where the object has a data section. Refuted: a pinned .rodata cannot be loaded twice; of two processes started together one fails; a pinned .data is reset by another start; a pinned map of another size is taken; a process ended after pinning leaves zeros. |
| C113 | Classifier links can be kept as parameters and made again | partial | Proved for all kernel states in which the filter is there and the interface has its name. Refuted: with handle 0 detaching removes all filters of the priority; renamed interfaces and reused numbers make the link stand for somebody else's filter; after others have removed the filter the program cannot be attached again, since the id is still in its table and the new filter is dropped; replacing through a second link of the program itself removes the filter. |
| C114 | An alias of a kernel module leads to a module that has it | partial | Proved for all trees whose names and aliases are tidy and distinct and whose modules are below `kernel`, given enough room. Refuted: names of modules are accepted according to the help but not found; one empty alias hides all modules after it; modules outside `kernel` are listed but not found; a full file system is not noticed for the last 8192 bytes, after which an alias can load another module; a file `m.ko.bak` is loaded in place of `m.ko.xz`; the directory of the kernel's release is never used. |
| C115 | A declared map that compiles is made as declared | partial | Proved for all declarations whose numbers have at most 32 bits: the loader asks for what is declared; the kernel makes it if the checks pass, the flags are among those of the map type and sizes are within limits; checks refuse nothing else. Refuted: tries without BPF_F_NO_PREALLOC, arrays, ring buffers, Bloom filters and program arrays without entries, 16 hash functions and unknown flags compile and no kernel makes them; maps whose methods are not called are not checked; a number of entries above 32 bits is cut without an error; arrays of values with an alignment of 16 give references that are not aligned. |
| C116 | The verdict of a run of tests in virtual machines is that of the tests | partial | Proved for all arguments of one word each, all binaries and all machines that were switched off as they should, when all that is printed is whole lines that do not begin as the verdict does; consoles may be terminals; that there is a verdict only if it was said once, with an exit code of 0, and that the command succeeds if and only if all machines do, are proved without conditions; the host stops the machine if and only if the kernel panics, stalls or locks up twice. Refuted: an argument with a space is cut or becomes two; with no binaries or no machines the run is a success; the verdict goes unseen after output that does not end its line; a binary that prints the verdict before the kernel panics makes a success. |
| C117 | Tests run on the newest kernel of a line that is complete | partial | Proved for all sites: what is chosen is of the line, has one image and one package of modules of that release, and no newer release has; one is found if it is among the ten newest and nothing is ambiguous or unavailable in it and newer releases. Refuted: image and modules can be of two builds of one release; a newer release with two images makes the command fail; a release behind ten that are not complete is not found; the first release of a line, named without a patch level, is never found. |
| C118 | Files kept from downloads are whole and current | partial | Proved for all histories with crashes at any point: the file is absent or exactly a version of the server; after a run with nothing wrong it is the version that the server has now, if tags tell versions, none begins with another, and the server never goes back, or if nothing crashed; unchanged files are not downloaded again. Refuted: after a crash between the file and its tag, and a server that goes back to the version before, all runs succeed with a file that the server does not have; two runs at a time can leave the older file with the newer tag, for good. |
| C119 | Test machines get exactly the files that were put into their archive | partial | Proved for all lists of entries, against a separate reader after the format that kernels document: what is written without an error is read back as exactly what was asked for, whatever follows it, if names have no zero byte, fewer than 4096 bytes and are not that of the trailer; and when it is written without an error. Refuted for other names: an entry with the name of the trailer hides itself and all later ones, and a name of 4096 bytes is written without an error and skipped by kernels. For all modules and programs: directories come before what is in them, below lib/modules there is exactly what the host has without links, and each test program is found under its name if no two of a profile share one; the first program is init of the distribution. Refuted: of two programs of a profile with one name, as a program and its own tests have, only the last is there, and nothing says so. Not covered: errors of the disk and of cargo. |
| C12 | Relocation of maps never panics on accepted objects | partial | Proved when each relocated load has its second half; a reference from the last instruction panics (refuted). |
| C13 | BTF serialisation round-trips | partial | Round trip of any canonical BTF whose records are coherent, of any parsed canonical BTF and of any BTF built with the API; parsing never panics. Missing: false without those conditions (BTF::new alone, unknown kinds, gaps between header and types, lists over 65535 entries), shown by the _violated theorems. |
| C14 | Sanitised BTF contains only what the kernel supports and keeps type ids | partial | Every record, feature set and section/symbol table: ids and string offsets kept, each record becomes what the kernel understands, result round-trips. Not fully true: an empty data section with its size already set is left alone on kernels without empty sections, and the STRUCT replacing a data section has the wrong size (both refuted). |
| C15 | BTF type resolution terminates at a concrete type | proved | All type graphs and ids: result, cycle or depth limit, unknown id. |
| C16 | BTF type size is the C size of the type | partial | Size of every type with at most one array dimension. False for nested arrays: the outer dimension is ignored. |
| C17 | BTF string lookup is total | partial | A returned string is the one at the offset; added strings are found. string_at panics for an offset between the string section length and header+offset+length; total below that. |
| C18 | CO-RE field relocations read the field's value | partial | The values patched for a byte offset, size, shifts and signedness make the program read exactly the field's bits, for fields of 1, 2, 4 or 8 byte types whose position is below 2^32 bits. Refuted: a position of 2^32 bits or more wraps; an integer encoding with several flags, none of them the sign flag, is taken as signed. |
| C19 | CO-RE patching touches only the relocated instruction | partial | Each relocated instruction is patched in its operand only and nothing else changes. Refuted: a plain member that is a bitfield in the kernel panics the loader; relocating an instruction of class LD other than a 64-bit immediate load also rewrites the next instruction; a value above 32 bits is cut to its low half in an arithmetic instruction. |
| C20 | CO-RE access paths resolve to the offset of the same-named field | partial | An accepted access string spells one path; a match is where the same path leads in the kernel's type; no match means no such path. Not covered: offsets beyond 2^64 bits, and for the last part arrays of length 0. Refuted: of a flexible array member only one index is accepted; the local offset of p[1].a counts bytes as bits, so that some bitfields are refused; elements that are themselves arrays of two or more dimensions are found in the wrong place; an anonymous member of its own type exhausts the stack. |
| C21 | CO-RE candidate choice is unambiguous | partial | When a value is computable for every match: resolved exactly if all agree, in any order. On success every match that gives a value gives this one. Refuted: a first match without value hides all others, so the result depends on the order; fields of different width are not conflicting, and the width depends on the order. |
| C22 | Section names select the intended program type | proved |  |
| C23 | Overriding a global writes that variable only | partial | Written bytes proved when names are unique, variables do not overlap and no two maps share a section. With two variables of one name only one, chosen by hash order, is written (refuted). |
| C24 | Instruction streams decode losslessly | proved |  |
| C25 | Helper sanitising only downgrades unsupported helpers | proved |  |
| C26 | Legacy map definitions are read field-for-field | partial | Proved for the two defined pinning values; any other value is read into a Rust enum unchecked (undefined behaviour, refuted). |
| C27 | Kernel version comparison and code | partial | Comparison and code proved for all versions. The code is not monotone across 4.4/4.9 patch levels above 255, as in the kernel's own macro. |
| C28 | CPU range lists denote the right CPUs | proved |  |
| C29 | Per-CPU values survive the kernel layout | proved | Every value size > 0 and CPU count: layout of the kernel buffer, read back, exactly one value per possible CPU, insert followed by get. |
| C30 | Map iteration visits every key once | partial | Every content, kernel order and kernel behaviour. Not fully true: when the current key is removed concurrently the kernel restarts from the first key and entries are yielded twice (refuted). |
| C31 | Ring buffer sizes are rounded to what the kernel accepts | partial | Smallest power-of-two multiple of the page size, for every size up to 2^31. Above that the computed size wraps to 0 (refuted). |
| C32 | Array-like maps reject out-of-range indexes without touching the kernel | proved | Every indexed map type and operation, every kernel behaviour. |
| C33 | Read-only data is frozen only after it is filled | proved | Every map and kernel behaviour: exactly the calls, in order, with the final bytes. |
| C34 | Every attachment is detached exactly once | partial | Every history over any number of programs, any kernel answers and set order. Not fully true, each refuted by a concrete history: a dropped LircLink is never detached; a netlink XDP link that outlives its program names a closed descriptor; a failed replacement loses a netlink link. |
| C35 | Program load state machine | proved | Every history; when a link fails to detach, unload reports the error and the program stays loaded. |
| C36 | Verifier log retry | partial | Every kernel behaviour and retry limit. A verifier log that is not valid UTF-8 panics (refuted). |
| C37 | Object id enumeration | proved | Every kernel behaviour; exact enumeration when the set of ids does not change. |
| C38 | TC handles round-trip | proved |  |
| C39 | Netlink attributes round-trip | proved | Any attributes and buffer contents, buffers up to 65535 bytes (requests have 64 or 296); the exact bytes of every request that is sent. |
| C40 | Malformed netlink replies give errors, not misreads | proved | Every byte string; full characterisation of the iterator by the wire format. |
| C41 | Netlink replies are collected completely | partial | Every reply in datagrams of at most 4096 bytes. A longer datagram is cut, and its messages are lost with an error (C41_long_datagram_violated). |
| C42 | Log records decode to what was logged | partial | Every format string, argument list, value, buffer content and standard-library texts, from format string to logger. Excluded: &[u8;4], &[u8;6], &[u8;16] in hexadecimal (see C43). |
| C43 | Accepted log statements never crash the logger | partial | Every statement that compiles, except hexadecimal &[u8;4], &[u8;6], &[u8;16]: flush panics on each of those (refuted for all of them). |
| C44 | Log format strings parse to their meaning | partial | All well-formed strings parse to their meaning. Of the others, only those with single closing braces around {{ are accepted (refuted: `}{{}`). |
| C45 | Malformed log records are rejected, not misread | partial | Every byte string. Unknown field kinds, levels and hints are undefined behaviour instead of errors (refuted); nothing else is. |
| C46 | Uprobe symbol addresses translate to file offsets | partial | A symbol of the attached file itself resolves to the offset the loader maps (given that sections lie in segments as linkers lay them out). Refuted for symbols found only in a separate debug file: the offset is taken from the debug file's section table. |
| C47 | Uprobe cookies stay with their points | proved | Offsets and cookies as resolved, and the probes that run afterwards, over every history and every answer of the kernel that gives fresh descriptors. |
| C48 | /proc/pid/maps lines parse to their fields | partial | Every line the kernel prints for a mapping with an inode number below 2^32 and a path without white space at its ends parses to exactly that mapping's fields; the set of accepted lines is characterised. Refuted: 64-bit inode numbers are rejected; trailing white space of a path is lost. |
| C49 | Library lookup in the process map finds the named library | partial | In the printed map of any process the lookup returns the first path naming the library, or nothing. Refuted: a hyphen after the name is accepted, so libapt finds libapt-pkg; a mapping with a 64-bit inode number makes the lookup fail. |
| C50 | kallsyms resolution | proved | Listing is any list of lines; BTF lookup of typed externs is a parameter. |
| C51 | Kernel version strings are parsed and sources consulted in order | proved |  |
| C52 | The kernel symbol table is parsed line by line | partial | Module symbols keep their tab-separated [module] suffix in the name, refuted by C52_module_suffix_violated. |
| C53 | Object names survive the kernel's fixed-size name field | proved |  |
| C54 | Section names written by the eBPF-side attribute macros are understood by the loader | proved |  |
| C55 | Functions and programs read from an object are exactly its code | partial | No panic proved when symbols end inside the section; a longer symbol panics (refuted). |
| C56 | Map handles behave like maps | proved | Against a specification of the kernel's hash table, queue and stack; every operation sequence. |
| C57 | Loading creates, pins and fills exactly the object's maps | proved | Every order of maps, loader setting and kernel behaviour; descriptors are not closed in the model. |
| C58 | A map handle knows the sizes of its kernel map | partial | Holds for created maps and maps opened by pin, id or descriptor. False for maps reused from their pin while loading: the sizes of the object file are believed (refuted with a kernel whose pinned map has larger values). |
| C59 | Classifiers are found and detached by name | partial | Holds when all filters of the hook are bpf filters. Refuted otherwise: option 7 of a filter of another kind (for flower, a source address mask) is read as a name, and the whole operation fails. |
| C60 | Attaching a classifier returns the kernel's priority and handle | proved | The read of the tcmsg is not checked against the payload length (C60_short_payload_unchecked); the kernel always sends a whole one. |
| C61 | Type lookup by name and kind returns the right type | proved | Every table. Completeness needs readable names for the types of the wanted kind: the search stops with an error at the first unreadable one. |
| C62 | Attaching a user space probe is all or nothing, and detaching undoes it | partial | Refuted on kernels before 4.17: the event definition in tracefs is removed while the perf event is open, so it stays. Refuted for paths with a NUL character when probes are attached one at a time: panic. |
| C63 | A bare library name is attached at the file the process or the linker's cache has for it | partial | Which path is used is proved exactly. Cache files in the current format are read exactly; in the old format only if the count happens to be UTF-8 (refuted); positions are not checked (refuted: panic or read out of bounds). |
| C64 | CO-RE existence, type and enumerator relocations | partial | Proved for enumerators; for types except rewritten 64-bit enums. Refuted: the size or id of a missing type makes loading fail instead of poisoning the instruction; a rewritten 64-bit enum is said not to exist. |
| C65 | BTF map definitions are read as written | partial | Exact result, both directions, relative to aya's own type sizes; C sizes for types with at most one array dimension. Violated: values of type int[2][3] get 12 bytes. Assumes BTF in the usual layout (types, then strings, below 4 GiB). Names that are not UTF-8 are compared as bytes. |
| C66 | The maps of an object are those its sections declare | partial | Violated: a .bss section of 4 GiB or more gets a truncated value size; a symbol of a maps section reaching past its end panics. Sections of other kinds (programs, text) are C24/C25; ELF reading itself is the object crate and not modelled. |
| C67 | Function, line and CO-RE records reach their function and the kernel as written | partial | Proved for well-formed sections whose names are in the BTF; CO-RE kind 12 (type matches) is outside. Refuted: with records larger than this version's structures the kernel is told the object's record size but given shorter records; a name not in the BTF, or records announced too short, panic (and nothing else does). |
| C68 | Attaching an XDP program fills exactly its place, and detaching undoes it | partial | Proved over a specification of the kernel's XDP places. Refuted: replacing the program of a netlink link always fails (the request asks both for 'only if empty' and for 'replace'); before Linux 5.7 detaching removes whatever program is in the place; a NUL in the interface name panics. |
| C69 | A classifier stands where its link order says | partial | Filters over netlink are proved over a specification of filters by interface, parent, priority and handle; a filter that could not be removed is forgotten. Orders are proved over a specification of the kernel's list of classifiers, when the link or program the order was made from is still open under its descriptor and that is not 0 for programs. Refuted: the order keeps only a descriptor number, so after the link is closed it can mean another link; a program with descriptor 0 means first or last. |
| C70 | Attaching to a control group, network namespace, socket map or infrared device | partial | Proved over a specification of the kernel's lists per object and hook. Modes are proved for kernels before 5.7. Refuted: on kernels with links AllowOverride and AllowMultiple are always refused, and Single does not keep other programs out; before 5.7 the link of a replaced program detaches the program that replaced it. |
| C71 | The kernel is given the program as it is in the object | partial | Proved for all answers of the kernel. Record buffers are C67, flags and types per section C24/C25, the retry itself C36. Refuted: loading an extension a second time is refused but changes the target of later calls of attach. A kernel log that is not UTF-8 panics (C36). |
| C72 | The code of a loaded program is the object's code with every reference resolved | partial | Proved for objects as compilers emit them (two-slot loads, one relocation per offset) whose kernel symbols are in the table of externs, when each symbol referred to names one map (C10), functions a program reaches have distinct addresses (C06) and programs are not called (C08). False without BTF: kernel symbols are then left alone and loads of their addresses give 0. CO-RE relocation comes before and is C19-C21. |
| C73 | Missing BTF stops loading exactly when it is needed | partial | Proved for the types a program's section says. Refuted for programs turned into extensions by EbpfLoader::extension: the check looks at the section only, so such a program is handed out without the BTF it requires. |
| C74 | Loading an object hands out its programs and maps | partial | Programs and maps proved for every object. The code is proved for objects with the properties C72 asks for. Parsing, CO-RE relocation and resolving of externs are functions given with the object (see C06-C21, C64-C67). |
| C75 | Typed maps only give the kernel memory of the size it reads and writes | partial | Proved for typed maps made from a Map of a loaded object or of Map::from_map_data, or created, when the recorded sizes are the kernel's (C58). Refuted: the variants of Map are public, so safe code can call a per-CPU array an array and have the kernel write past the buffer; a map reused by its pin keeps the sizes of the object. SockHash only accepts maps whose lookups the kernel refuses, so its get never succeeds. |
| C76 | A probe, trace point or perf event program runs at exactly what was asked for, and detaching undoes it | partial | Proved for requests that make sense. Refuted otherwise: on kernels without probe event sources the offset of a return probe is dropped and files such as libstdc++.so.6 cannot be probed; process number 2^32-1 means every process; an empty function name means an absolute address; NUL in a name panics; the descriptor of PerfEvent::attach is inherited over exec; a definition in tracefs is left behind, as it is removed while still in use. |
| C77 | A test run is a run of the program on the given data | partial | Proved over a specification of BPF_PROG_TEST_RUN, for output buffers that are absent or not empty. Refuted: an empty output buffer is given to the kernel with size 0, which means no limit, so safe code has the packet written past the buffer; without a buffer the size written is reported as that of the packet. |
| C78 | Asking what is attached lists everything and changes nothing | partial | Proved for infrared devices and classifiers, and for control groups as long as the answer is kept. Refuted for control groups: CgroupDevice::query returns links that detach when dropped, so asking which device programs are attached detaches those attached without a link, also of other processes; a program that goes away while asking makes it fail after having detached the ones before. |
| C79 | Probes see the arguments and results of the functions they trace | partial | Proved for 64-bit machines and types of at most 64 bits, over a specification of the kernels' register frames and C calling conventions. Refuted: on 32-bit ARM and MIPS the registers are read as eight-byte words, so arguments are taken from other registers; arg(4) on ARM is not None; 128-bit types get one register only. |
| C80 | Copying and filling memory in eBPF programs is exact | proved |  |
| C81 | Strings and packet bytes read in eBPF programs are the ones in memory and in the packet | partial | Proved over specifications of the kernel's helpers; load_bytes for every offset. Refuted for load and store: the offset is cut to 32 bits, so an offset of 2^32 or more reads or overwrites bytes elsewhere in the packet and reports success. |
| C82 | A map declared in an eBPF program is created as declared and opens as the typed map of the same name | partial | Proved for every map type and every size below 4 GiB, from the bytes or the BTF members of the declaration to the typed map opened. Refuted for BTF declarations with values that are arrays of arrays: the loader takes the size of the inner array for the element count, creates the map with values that are too small, and the typed map does not open it. What the compiler emits for a declaration is taken as written by btf_map_def!. |
| C83 | What eBPF programs submit to a ring buffer is what the process reads, in order, and nothing else | partial | Proved for every history over the ring buffer model of C01-C03, with entries as pointers into the ring. Partial as C01-C03 are: rings up to 1 GiB, positions that do not wrap at 2^64, the kernel's reserve as one step. What the verifier rejects (entries neither submitted nor discarded) is not modelled. |
| C84 | What eBPF programs output to a perf event array is what the process reads from the buffer of that CPU | partial | Proved for every history of opening and output, up to the events handed to callbacks. Refuted for the documented promise of open: an output at the index of another CPU than the one the program runs on is refused by the kernel, the library drops the error, and the buffer neither gets it nor counts it as lost. |
| C85 | Information about loaded programs and maps is about them, complete and as the kernel tells it | partial | Proved over worlds in which programs and maps come and go between any two calls. Refuted in three places: a probe that fails once (no right to load, or any other error) is remembered for the life of the process, so that map_ids and gpl_compatible give None for every program afterwards; a path with a zero byte panics; the error for an unknown map type carries 34 instead of the type. memory_locked panics from 4 GiB on. |
| C86 | What the library says about the kernel's abilities is right, and the limit of locked memory is raised when needed | partial | Proved for every kernel that checks in Linux's order, for all 33 map types, all program types, all functions and features. For programs the kernel must describe its own functions (BTF): otherwise LSM programs for cgroups and tracing programs are reported as supported although they cannot be loaded or attached (refuted). A process that may raise the limit of locked memory only up to its hard limit does not get it raised at all (refuted). |
| C87 | A map used by a process and by programs behaves as one map | partial | Proved for all sequences of operations of both sides, for a kernel that performs one operation after another. For device maps a chained program must not have descriptor 0, which is dropped without a word (refuted). Concurrent writes through pointers into a value, LRU eviction, and the maps of sockets, stacks and local storage beyond what is named are not modelled. |
| C88 | Maps stored in maps of maps are the maps that were stored | partial | Proved for all histories with arrays as inner maps, for a kernel that performs one operation after another and processes that do not interfere: between reading an id and opening it nobody else replaces the map. Inner maps of other kinds and interference are the matter of C103. |
| C89 | Pinned programs, maps and links are what was pinned, for as long as they are pinned | partial | Proved for all histories in which no program is unpinned after a failed attempt to pin or unpin it (or when it came from from_program_info) and files are opened as what they are by paths without zero bytes; that a pinned object stays is proved for all histories. The exceptions are refuted: a refused pin is noted, and unpin then removes a file of somebody else; a failed unpin forgets the path; from_pin checks neither kind nor program type; from_pin of programs and links panics on a zero byte. A link whose pin or unpin fails is dropped, as its signature says. |
| C90 | The kernel functions and variables an object declares are the kernel's own, of the declared type | partial | Collecting, resolving against kernel BTF and fixing up the section are each proved for all inputs. Missing, and refuted: a variable whose type in the kernel is a typedef or qualified is refused although the types are the same (resolve_extern_variable compares the kinds before looking through typedefs), so Fits in C90_resolved_partial asks for equal kinds too; with two symbols of one name the iteration order of a hash map decides whether the extern is weak, so C90_collected_partial says only that some symbol of the name is as weak as the extern. C90_resolved_partial takes the object's BTF at the time of resolving as given; that fixing up the section keeps types the same is in C90_accepted, the other sanitizing steps in between are not composed. Sizes are bounded so that 32-bit offsets do not overflow. Only the BTF of the kernel itself is searched, as in the code, not that of modules. |
| C91 | Attribute macros accept exactly the documented arguments, in any order, and make the program they ask for | partial | Which tokens are accepted and what they stand for is proved as an equivalence for every macro, and the rest follows for every accepted attribute, through the section name (C54). Missing, and refuted: that every accepted argument counts. uprobe with a function but no path, and kprobe with an offset but no function, are accepted and the argument is dropped; the specification Asks used by C91_accepted_partial lets them. The Rust tokenizer and the parsing of the item below the attribute are not modelled; that generated wrappers compile is not claimed. |
| C92 | Socket filters and selectors go into the slot meant, for the socket or group meant, and stay there | proved | C92_histories is a refinement over all histories, from code working with descriptor numbers on a model of Linux (sockets, groups, filter lock, SO_REUSEPORT, faults) to a specification that speaks of programs and sockets; the other theorems are stated of the code in any reachable state. That sockets stay in the list of sockets when the last descriptor is closed is a simplification: nothing can be done to them any more. |
| C93 | What programs log arrives once, whole and in order | partial | The last sentence is false: a statement that shows a &[u8; 4], &[u8; 6] or &[u8; 16] with {:x} compiles and is sent, flush panics at it, and nothing is logged any more for anyone (C93_one_ends_all_violated). All else is proved, over all schedules of single bytes written, of the kernel's commits and of the reader's loads and stores; messages are told of statements other than those (Plain). The logger making no step after a panic is a simplification: nothing in the crate catches it. |
| C94 | Generated bindings are what was asked for | partial | What bindgen reads is proved for all flags it can read itself; how it reads a command line is a specification with the options that take values left open. Refuted: --ctypes-prefix=x is not recognised, both prefixes are passed and bindgen refuses; the word --ctypes-prefix among the arguments for clang is taken away; a header is copied to a temporary directory, away from the files it includes. |
| C95 | Tail calls go to the program that was set | partial | Entries stay as long as the table is held by a handle or a pin. Refuted: when the last handle of a table is dropped Linux empties it, although an attached program uses it still (the handle taken in the documented example goes that way at the end of its scope); indices is documented to give the indices that point to a program but gives all of them. |
| C96 | Helpers give and show what there is | partial | Refuted: a byte array without NUL is said to be equal to every longer string that begins with it; the macro is documented to take the formats of printk but the helpers refuse some; with fewer arguments than directives, registers left over are printed and nobody is told. Not modelled: directives for strings and for pointers other than %px. |
| C97 | Socket maps hold the sockets put in them | partial | Refuted: a socket given to SockHash::insert by value is closed at the end of the call and so is not in the map, though the call succeeded; indices gives all indices, not those that point to a socket. |
| C98 | Buffers map memory, stay within it, and give it back | partial | Refuted: a ring buffer that is larger than its definition says (a pinned map that is reused) is opened without error and read in the wrong places; a perf buffer of 2^52 pages is opened without error and has no place for data. |
| C99 | Contexts tell programs what the kernel has, and what is changed through them is what was asked for | partial | Refuted: after a reply is set, the first argument is the reply; the port of the peer is not its number (network byte order in four bytes) while the local port is; a call that fails for an unknown flag sets the others; an offset of 2^32 and more is cut and another checksum changed. |

## Where the code breaks the statement

* C01: `Verif.RingBuf.C01_size_2_31_violated`
* C06: `Verif.Linker.C06_two_text_sections_violated`
* C08: `Verif.Linker.C08_program_calls_program_violated`
* C10: `Verif.Reloc.C10_wrong_map_violated`
* C100: `Verif.Local.C100_pointer_violated`
* C101: `Verif.Redirect.C101_program_violated`, `Verif.Redirect.C101_zero_violated`, `Verif.Redirect.C101_socket_violated`, `Verif.Redirect.C101_adopt_violated`, `Verif.Redirect.C101_old_violated`
* C102: `Verif.Conv.C102_left_violated`, `Verif.Conv.C102_refused_violated`, `Verif.Conv.C102_many_violated`, `Verif.Conv.C102_other_kind_violated`, `Verif.Conv.C102_failure_violated`, `Verif.Conv.C102_unpin_violated`
* C103: `Verif.Nested.Race.C103_gone_violated`, `Verif.Nested.Race.C103_reused_violated`
* C104: `Verif.RingBuf.Many.C104_twice_violated`, `Verif.RingBuf.Many.C104_held_violated`, `Verif.RingBuf.Many.C104_garbage_violated`, `Verif.RingBuf.Many.C104_stuck_violated`, `Verif.RingBuf.Many.C104_unwoken_violated`
* C105: `Verif.LogAttach.C105_hidden_error_violated`, `Verif.LogAttach.C105_passed_over_violated`, `Verif.LogAttach.C105_remembered_violated`, `Verif.LogAttach.C105_not_a_ring_violated`
* C106: `Verif.Build.C106_same_name_violated`, `Verif.Build.C106_reserved_name_violated`, `Verif.Build.C106_not_utf8_violated`, `Verif.Build.C106_left_behind_violated`, `Verif.Build.C106_host_violated`, `Verif.Build.C106_char_violated`
* C107: `Verif.Stacks.C107_programs_violated`, `Verif.Stacks.C107_reader_violated`, `Verif.Stacks.C107_not_found_violated`, `Verif.Stacks.C107_zero_violated`
* C108: `Verif.Hygiene.C108_leaving_violated`, `Verif.Hygiene.C108_type_violated`, `Verif.Hygiene.C108_name_violated`, `Verif.Hygiene.C108_surplus_violated`, `Verif.Hygiene.C108_level_violated`, `Verif.Hygiene.C108_long_violated`
* C109: `Verif.Listing.C109_moment_violated`, `Verif.Listing.C109_effect_violated`, `Verif.Listing.C109_delay_violated`
* C11: `Verif.Reloc.C11_call_of_variable_violated`
* C110: `Verif.Exit.C110_left_violated`, `Verif.Exit.C110_dropped_violated`, `Verif.Exit.C110_cgroup_violated`, `Verif.Exit.C110_classifier_violated`, `Verif.Exit.C110_xdp_violated`, `Verif.Exit.C110_perf_event_violated`, `Verif.Exit.C110_entries_violated`, `Verif.Exit.C110_restart_violated`
* C111: `Verif.Stats.C111_missed_violated`, `Verif.Stats.C111_time_violated`, `Verif.Stats.C111_after_violated`, `Verif.Stats.C111_disabled_violated`
* C112: `Verif.Reload.C112_rodata_violated`, `Verif.Reload.C112_race_violated`, `Verif.Reload.C112_reset_violated`, `Verif.Reload.C112_size_violated`, `Verif.Reload.C112_zeros_violated`
* C113: `Verif.TcLink.C113_handle_violated`, `Verif.TcLink.C113_renamed_violated`, `Verif.TcLink.C113_reused_violated`, `Verif.TcLink.C113_again_violated`, `Verif.TcLink.C113_twice_violated`
* C114: `Verif.Modules.C114_release_violated`, `Verif.Modules.C114_name_violated`, `Verif.Modules.C114_empty_violated`, `Verif.Modules.C114_outside_violated`, `Verif.Modules.C114_short_violated`, `Verif.Modules.C114_longer_violated`
* C115: `Verif.Decls.C115_trie_violated`, `Verif.Decls.C115_empty_violated`, `Verif.Decls.C115_bloom_violated`, `Verif.Decls.C115_flags_violated`, `Verif.Decls.C115_unused_violated`, `Verif.Decls.C115_cut_violated`, `Verif.Decls.C115_align_violated`
* C116: `Verif.Verdict.C116_args_violated`, `Verif.Verdict.C116_two_violated`, `Verif.Verdict.C116_empty_violated`, `Verif.Verdict.C116_none_violated`, `Verif.Verdict.C116_unfinished_violated`, `Verif.Verdict.C116_forged_violated`
* C117: `Verif.Builds.C117_mismatch_violated`, `Verif.Builds.C117_ambiguous_violated`, `Verif.Builds.C117_eleventh_violated`, `Verif.Builds.C117_first_violated`
* C118: `Verif.Fetch.C118_back_violated`, `Verif.Fetch.C118_together_violated`
* C119: `Verif.Cpio.C119_trailer_violated`, `Verif.Cpio.C119_long_violated`, `Verif.Cpio.C119_twice_violated`
* C12: `Verif.Reloc.C12_last_instruction_violated`
* C13: `Verif.Btf.C13_new_violated`, `Verif.Btf.C13_unknown_kind_violated`, `Verif.Btf.C13_layout_violated`, `Verif.Btf.C13_long_list_violated`
* C14: `Verif.Btf.C14_sized_empty_section_violated`, `Verif.Btf.C14_section_struct_size_violated`
* C16: `Verif.Btf.C16_matrix_violated`
* C17: `Verif.Btf.C17_panic_violated`
* C18: `Verif.Core.C18_far_violated`, `Verif.Core.C18_signed_violated`
* C19: `Verif.Core.C19_bitfield_violated`, `Verif.Core.C19_next_violated`, `Verif.Core.C19_truncated_violated`
* C20: `Verif.Core.C20_flexible_violated`, `Verif.Core.C20_local_index_violated`, `Verif.Core.C20_matrix_violated`, `Verif.Core.C20_cycle_violated`
* C21: `Verif.Core.C21_order_violated`, `Verif.Core.C21_width_violated`
* C23: `Verif.Obj.C23_duplicate_name_violated`
* C26: `Verif.Obj.C26_pinning_unchecked_violated`
* C27: `Verif.Util.C27_code_monotone_violated`
* C30: `Verif.Maps.C30_duplicate_after_restart_violated`
* C31: `Verif.Maps.C31_overflow_violated`
* C34: `Verif.Links.C34_lirc_violated`, `Verif.Links.C34_xdp_netlink_violated`, `Verif.Links.C34_replace_failure_violated`
* C36: `Verif.Retry.C36_non_utf8_log_violated`
* C41: `Verif.Netlink.C41_long_datagram_violated`
* C43: `Verif.Log.C43_hex_array_violated`
* C44: `Verif.Log.C44_stray_closers_violated`
* C45: `Verif.Log.C45_unknown_kind_violated`
* C46: `Verif.UProbe.C46_debug_file_violated`
* C48: `Verif.UProbe.C48_inode_violated`, `Verif.UProbe.C48_trailing_space_violated`
* C49: `Verif.UProbe.C49_other_library_violated`, `Verif.UProbe.C49_inode_violated`
* C52: `Verif.Util.C52_module_suffix_violated`
* C55: `Verif.Obj.C55_overlong_symbol_violated`
* C58: `Verif.Maps.C58_reused_pin_violated`
* C59: `Verif.Netlink.C59_other_filter_violated`
* C62: `Verif.UProbe.C62_event_leak_violated`, `Verif.UProbe.C62_nul_path_violated`
* C63: `Verif.UProbe.Cache.C63_old_count_violated`, `Verif.UProbe.Cache.C63_positions_violated`
* C64: `Verif.Core.C64_missing_type_violated`, `Verif.Core.C64_replaced_violated`
* C65: `Verif.ObjMaps.C65_matrix_violated`
* C66: `Verif.ObjMaps.C66_large_bss_violated`, `Verif.ObjMaps.C66_maps_panic_violated`
* C67: `Verif.Ext.C67_record_size_violated`, `Verif.Ext.C67_panic_violated`
* C68: `Verif.Attach.Xdp.C68_replace_netlink_violated`, `Verif.Attach.Xdp.C68_detach_other_violated`, `Verif.Attach.Xdp.C68_nul_violated`
* C69: `Verif.Attach.Tcx.C69_stale_order_violated`, `Verif.Attach.Tcx.C69_fd_zero_violated`, `Verif.Attach.Tcx.Filter.C69_filter_forgotten_violated`
* C70: `Verif.Attach.Fd.C70_mode_violated`, `Verif.Attach.Fd.C70_single_violated`, `Verif.Attach.Fd.C70_detach_other_violated`
* C71: `Verif.Attach.Load.C71_extension_violated`
* C72: `Verif.Pipe.C72_extern_without_btf_violated`
* C73: `Verif.Loader.C73_forced_extension_violated`
* C75: `Verif.Handles.C75_mislabelled_violated`, `Verif.Handles.C75_reused_pin_violated`, `Verif.Handles.C75_sock_hash_get_violated`
* C76: `Verif.Probe.C76_ret_offset_violated`, `Verif.Probe.C76_pid_violated`, `Verif.Probe.C76_address_violated`, `Verif.Probe.C76_nul_violated`, `Verif.Probe.C76_nul_kprobe_violated`, `Verif.Probe.C76_name_violated`, `Verif.Probe.C76_inheritable_violated`, `Verif.Probe.C76_definition_left_violated`
* C77: `Verif.Run.C77_empty_violated`, `Verif.Run.C77_size_violated`
* C78: `Verif.Attach.Query.C78_device_violated`, `Verif.Attach.Query.C78_device_failed_violated`
* C79: `Verif.Ebpf.Args.C79_arm_violated`, `Verif.Ebpf.Args.C79_arm_count_violated`, `Verif.Ebpf.Args.C79_mips_violated`, `Verif.Ebpf.Args.C79_wide_violated`
* C81: `Verif.Ebpf.Read.C81_load_offset_violated`, `Verif.Ebpf.Read.C81_store_offset_violated`
* C82: `Verif.Ebpf.Decl.C82_matrix_violated`
* C84: `Verif.Ebpf.Perf.C84_other_cpu_violated`
* C85: `Verif.Info.C85_unknown_map_type_violated`, `Verif.Info.C85_from_pin_violated`, `Verif.Info.C85_failed_probe_violated`
* C86: `Verif.Features.C86_second_limit_violated`, `Verif.Features.C86_undescribed_violated`
* C87: `Verif.Shared.C87_devices_violated`
* C89: `Verif.Pins.C89_foreign_violated`, `Verif.Pins.C89_again_violated`, `Verif.Pins.C89_info_violated`, `Verif.Pins.C89_kind_violated`, `Verif.Pins.C89_nul_violated`
* C90: `Verif.Externs.C90_typedef_violated`, `Verif.Externs.C90_order_violated`
* C91: `Verif.Macros.C91_ignored_violated`
* C93: `Verif.LogRun.C93_one_ends_all_violated`
* C94: `Verif.Tool.C94_joined_violated`, `Verif.Tool.C94_clang_violated`, `Verif.Tool.C94_relative_violated`
* C95: `Verif.Jump.C95_stays_violated`, `Verif.Jump.C95_indices_violated`
* C96: `Verif.Helpers.C96_formats_violated`, `Verif.Helpers.C96_missing_violated`, `Verif.Helpers.C96_compare_violated`
* C97: `Verif.Socks.C97_owned_violated`, `Verif.Socks.C97_indices_violated`
* C98: `Verif.Mapped.C98_reused_violated`, `Verif.Mapped.C98_pages_violated`
* C99: `Verif.Ctx.C99_reply_violated`, `Verif.Ctx.C99_port_violated`, `Verif.Ctx.C99_flags_violated`, `Verif.Ctx.C99_offset_violated`

## What is modelled

Paths relative to `/repo`. Every definition cites the lines it models.

| module | code |
|--------|------|
| `RingBuf` | `aya/src/maps/ring_buf.rs`: `next`, item drop, consumer and producer positions, polling |
| `Perf` | `aya/src/maps/perf/perf_buffer.rs`: `open` (size check), `try_fold`, `read_events`, `for_each` |
| `Maps` | `aya/src/maps`: handles, iterators, per-CPU values, bounds checks, hash map, array, queue, stack, device and CPU maps; creation, pinning, reuse and filling of maps in `aya/src/bpf.rs`; the `bpf(2)` wrappers and verifier log retry of `aya/src/sys/bpf.rs` |
| `Links` | `aya/src/programs/links.rs`, load/unload/attach of `aya/src/programs/mod.rs`, XDP and TC links |
| `UProbe` | `aya/src/programs/uprobe.rs`, `probe.rs`, `perf_attach.rs`: `/proc/pid/maps`, linker cache, symbol resolution (parsed ELF given), attach and detach |
| `Netlink` | `aya/src/sys/netlink.rs` entirely, callers in `tc.rs` and `xdp.rs` |
| `Util` | `aya/src/util.rs` (versions, CPU lists, kernel symbols, names), `TcHandle` |
| `Linker`, `Reloc`, `Ksyms` | `aya-obj/src/relocation.rs`, `aya-obj/src/extern_types.rs` |
| `Obj`, `Section`, `ObjMaps` | `aya-obj/src/obj.rs`: sections, programs, functions, maps, globals, helper sanitising; section names of `aya-ebpf-macros` |
| `Btf`, `Ext`, `Core` | `aya-obj/src/btf`: reading, writing, sanitising, lookup, sizes, `.BTF.ext`, CO-RE relocation |
| `Attach` | `aya/src/programs/xdp.rs`, `tc.rs` (attach, detach, replace), `LinkOrder`, `netlink_set_xdp_fd`, `bpf_link_create`/`bpf_link_update` as calls; `cgroup_*.rs`, `sock_ops.rs`, `lsm_cgroup.rs`, `flow_dissector.rs`, `sk_lookup.rs`, `sk_msg.rs`, `sk_skb.rs`, `lirc_mode2.rs` (attach, detach), `ProgAttachLink`; `load_program`, `unload_program`, `bpf_load_program`, `extension.rs`, the loads of tracing programs, `parse_license`, `parse_version`; `query`, `CgroupDevice::query`, `LircMode2::query`, `query_tcx` |
| `Pipe` | `aya/src/bpf.rs:673-689`: map references, externs, calls and helpers applied in turn to all functions of an object |
| `Loader` | `aya/src/bpf.rs:450-941`: `EbpfLoader::load` from the parsed object to the programs and maps handed out, with the map and code stages of `Maps` and `Pipe` |
| `Handles` | typed maps of `aya/src/maps`: `TryFrom<Map>`, `Map::from_map_data`, the checks of `new`, `create`, and the sizes of the buffers each operation gives to `aya/src/sys/bpf.rs`. Mapping a ring buffer (`RingBuf`, `Perf`) and what the calls answer (`Maps`) are elsewhere |
| `Probe` | `aya/src/programs/{kprobe,probe,perf_attach,trace_point,perf_event,raw_trace_point,utils}.rs` and `aya/src/sys/perf_event.rs`: attaching and detaching, down to the text written to tracefs and the fields of `perf_event_attr`. Not modelled: several lines written to tracefs at once, non-UTF-8 paths, where tracefs is searched |
| `Run` | `aya/src/programs/mod.rs` (`TestRun`), `aya/src/sys/bpf.rs` (`bpf_prog_test_run*`) |
| `Info` | `aya/src/programs/info.rs`, `aya/src/maps/info.rs`, `boot_time` and `get_fdinfo` of `aya/src/programs/utils.rs`, two probes of `aya/src/sys/feature_probe.rs` |
| `Features` | `aya/src/sys/feature_probe.rs`, the probes and the retry of `aya/src/sys/bpf.rs`, `aya/src/kernel_features.rs` |
| `Shared` | the maps of `ebpf/aya-ebpf/src/maps` (hash, array, per-CPU array, queue, stack, Bloom filter, prefix trie, device map, redirects, socket lookup) together with those of `aya/src/maps` |
| `Nested` | `aya/src/maps/of_maps/{array,hash_map}.rs`, `MapData::create`, `from_id` and closing, `aya/src/maps/array/array.rs`, `ebpf/aya-ebpf/src/btf_maps/of_maps/{array,hash_map}.rs` |
| `Pins` | pinning in `aya/src/programs/mod.rs`, `aya/src/programs/links.rs` and `aya/src/maps/mod.rs` |
| `Externs` | `aya-obj/src/btf/extern_types.rs`, typed externs in `aya-obj/src/extern_types.rs`, `fixup_ksyms_datasec` in `aya-obj/src/btf/btf.rs` (modelled in `Btf/Sanitize.lean`) |
| `Macros` | `aya-ebpf-macros/src`: arguments, accepted programs, contexts, maps (section names are in `Section`) |
| `SockFilter` | `socket_filter.rs`, `sk_reuseport.rs`, the conversions of `programs/mod.rs` for them |
| `LogRun` | the generated log statement of `aya-log-ebpf-macros/src/expand.rs` (174-246) step by step, `EbpfLogger::flush` of `aya-log/src/lib.rs` |
| `Tool` | `aya-tool/src/generate.rs`, `aya-tool/src/bindgen.rs` |
| `Jump` | `aya/src/maps/array/program_array.rs`, `insert`, `remove`, `MapKeys`, `MapData::{create,from_pin,pin}` as used by it, `ProgramArray::tail_call` of `ebpf/aya-ebpf` |
| `Helpers` | `ebpf/aya-ebpf/src/helpers.rs`: `bpf_probe_read*` (values and buffers), `bpf_probe_write_user`, `bpf_get_current_comm`, `bpf_printk!`, `bpf_strncmp` |
| `Socks` | `maps/sock/`: `SockMap`, `SockHash` (insert, remove), `ReusePortSockArray`; `ebpf/aya-ebpf/src/maps/` and `btf_maps/`: `sock_map.rs`, `sock_hash.rs`, `reuseport_sock_array.rs` |
| `Mapped` | `util.rs`: `MMap`; `maps/ring_buf.rs`: `RingBuf` (new, next, items, drop); `maps/perf/perf_buffer.rs`: `PerfBuffer` (open, try_fold, drop); `perf_event_array.rs`: open |
| `Ctx` | `programs/{sk_buff,xdp,sk_msg,sk_reuseport,sock_ops,flow_dissector}.rs` of `aya-ebpf`: accessors, setters, checksum helpers, push and pop; layouts of `bindings.rs` |
| `Local` | `aya/src/maps/{sk_storage,inode_storage,cgrp_storage,cgroup_storage}.rs`, `array/cgroup_array.rs`; of `aya-ebpf` `btf_maps/{sk_storage,inode_storage,cgrp_storage,cgroup_storage,cgroup_array}.rs`, `maps/{cgroup_storage,cgroup_array}.rs`, `skb_under_cgroup` |
| `Redirect` | `aya/src/maps/xdp/{dev_map,dev_map_hash,cpu_map,xsk_map}.rs`, the sizes of values in `bpf.rs`; of `aya-ebpf` `maps/xdp/*.rs` and `btf_maps/{dev_map,dev_map_hash,cpu_map,xsk_map}.rs` |
| `Conv` | conversions, dropping and detaching of links: `aya/src/programs/links.rs`, and the link types in `xdp.rs`, `tc.rs`, `perf_attach.rs`, `probe.rs`, `uprobe.rs`, `iter.rs` |
| `LogAttach` | `aya-log/src/lib.rs` 136-180, `maps/mod.rs` 951-962, the mappings made by `RingBuf::new` (`maps/ring_buf.rs` 97-111, 203-214, 272-324); `mmap` is a parameter, errors are their numbers |
| `Build` | `aya-build/src/lib.rs`; `c_char` of `aya-ebpf-cty/src/lib.rs`; cargo, rustc, rustup and the files are parameters |
| `Stacks` | `aya/src/maps/stack_trace.rs`, `MapKeys` and `MapIter` as used by it, `get_stackid` of `ebpf/aya-ebpf/src/programs/tracing.rs`; `kernel/bpf/stackmap.c` is in `Stacks/Spec.lean` |
| `Hygiene` | `log` and `LogArgs` of `aya-log-ebpf-macros/src/expand.rs` as code in scopes (`Lang.lean` is the language; parsing of the tokens by `syn` is not modelled), `level_enabled` |
| `Listing` | `loaded_links`, `iter_obj_ids`, `bpf_link_get_fd_by_id`, `bpf_link_get_info_by_fd`, `LinkInfo`, `LinkType` |
| `Exit` | the system calls of `attach`, `Drop`, `pin`, `from_pin` and `attach_to_link` of all families, `perf_attach`, `attach_impl`, the documented restart of `SchedClassifier::attach_to_link` |
| `Stats` | `enable_stats`, `Stats`, `bpf_enable_stats`, `ProgramInfo::run_count`, `run_time`, the documented usage |
| `Reload` | the system calls of `EbpfLoader::load` for maps: `create`, `create_pinned_by_name`, `pin`, `finalize`, one at a time |
| `TcLink` | `SchedClassifierLink::attached` and its getters, `NlLink::detach`, `do_attach` and `attach_to_link` for netlink, `Links::insert`, `remove`, `forget` |
| `Modules` | `depmod` and `modprobe` of `test-distro`, `resolve_modules_dir`; decompression, object files, `glob` with wildcards and `init_module` are parameters |
| `Decls` | `btf_maps` but for maps of maps: the constants, the checks when compiling, and the request to the kernel; the BTF in between is in `ObjMaps`; that the compiler cuts lengths to 32 bits is assumed |
| `Verdict` | `test-distro/src/init.rs` and the end of `xtask/src/run.rs`, from the command line of the kernel on; how the machine image is built is not modelled |
| `Builds` | `ubuntu_mainline_kernel_urls`: which release and which packages; HTML, downloads and unpacking are not modelled |
| `Fetch` | `download_to_path`: the file and its tag, and what is sent; HTTP itself, time limits and the temporary file are not modelled |
| `Cpio` | `CpioArchiveBuilder`: every byte that it writes, and the part of `run` that says which entries; errors of the disk are not modelled, and the specification of kernels is after their documentation |
| `Ebpf` | `ebpf/aya-ebpf/src`: arguments and results (`args.rs`), memory functions and bounds check (`lib.rs`), string helpers (`helpers.rs`), packet access (`programs/sk_buff.rs`), map declarations (`maps`, `btf_maps`), ring buffer and perf output (`maps/ring_buf.rs`, `maps/perf`) |
| `Log` | `aya-log-parser`, `aya-log-common`, the expansion of `aya-log-ebpf-macros`, `aya-log` |

## What is not modelled

* The ELF reader (`object` crate), system calls themselves, the kernel's verifier, the async wrappers,
  `xtask`, the generated bindings except the register structures, and the eBPF-side map and context types except those named above and
  what the log macros expand to. The types of programs differ in attach types and options; these parameters are not modelled except for user space
  probes, classifiers and XDP.
* Memory exhaustion, signals, and concurrent use of one handle from several threads (handles are `&mut`).
* Big-endian hosts, and hosts with 32-bit pointers, unless a file says otherwise.

## Assumptions about the environment

* `RingBuf`: producer side of `kernel/bpf/ringbuf.c`; stores of the consumer may be delayed, but not reordered with each
  other (x86-TSO). `Perf`: record layout of `perf_event.h`.
* `Maps`: nothing about the kernel, except where a theorem names a specification of hash tables, queues, or per-CPU layout.
* `Links`, `UProbe`: fresh descriptors; closing a link descriptor detaches; the meaning of each call is in `Links/Spec.lean` and
  `UProbe/AttachSpec.lean`.
* `Attach`: `net/core/dev.c` (XDP places, flags, expected program), `kernel/bpf/mprog.c` and `tcx.c` (order of classifiers), `net/sched/cls_api.c` (filters by priority and handle), `kernel/bpf/cgroup.c`, `net_namespace.c`, `net/core/sock_map.c`, `drivers/media/rc/bpf-lirc.c` (objects given by descriptor); a link is
  open through one descriptor; new descriptors and links are fresh in the state at hand; the kernel may refuse any call for further reasons.
* `Netlink`: datagrams as sent by the kernel, for the completeness theorems only.
* `Attach/QuerySpec.lean`: `__cgroup_bpf_query`, `bpf_mprog_query`, `lirc_prog_query`: as many ids as fit, the number there are, error 28 when they do not all fit.
* `Run/Spec.lean`: `kernel/bpf/syscall.c`, `net/bpf/test_run.c`: what is read and written at the addresses given; a data buffer of size 0 is not limited.
* `Ebpf/ArgsSpec.lean`: `arch/*/include/asm/ptrace.h` and the C calling conventions. `Ebpf/ReadSpec.lean`: `mm/maccess.c`, `net/core/filter.c`. `Ebpf/RingModel.lean`, `Ebpf/PerfModel.lean`: `kernel/bpf/ringbuf.c`, `kernel/trace/bpf_trace.c`, `kernel/events/core.c`.
* `Info/Spec.lean`: `bpf_prog_get_info_by_fd`, `bpf_obj_get_next_id` of `kernel/bpf/syscall.c`; a program comes to use more maps but never fewer; ids are not used again; the format of `/proc/self/fdinfo`.
* `Features/Spec.lean`: `map_create` with the checks of each map type, `bpf_prog_load`, `bpf_check_attach_target`, `btf_new_fd`, `bpf_charge_memlock` of Linux, in the order of their checks; that failures for lack of memory happen before the verifier writes anything.
* `Shared/Spec.lean`: Linux's hash table, array, per-CPU array, queue and stack, Bloom filter, prefix trie and device map, one operation at a time, reached by system calls and by helper functions; `bpf_redirect_map`.
* `Nested/Spec.lean`: Linux's maps of maps with arrays inside: storing by descriptor (the inner map must have the declared sizes), reading ids, opening by id while the map is referred to, a limit on descriptors, one operation at a time.
* `Pins/Spec.lean`: kernel objects, bpffs files and descriptors; `BPF_OBJ_PIN` refuses a path in use and `BPF_OBJ_GET_INFO_BY_FD` answers for an object of any kind; every call may fail for outside reasons; an object lives while a descriptor, a file or a link that lives refers to it.
* `UProbe/SymSpec.lean`: sections of an ELF file lie in the segments as linkers lay them out.
* `Btf`, `Core`, `ObjMaps`: C layout as in the System V ABI for 64-bit targets, where sizes are compared with C.
* Arithmetic wraps as in release builds wherever a model says so; in debug builds these places panic.

## Trusted base

* Lean 4.33.0 kernel. Axioms: at most `propext`, `Classical.choice`, `Quot.sound`; `AXIOMS.md` lists the axioms of each
  theorem of the manifest, as printed by `#print axioms`. No axiom is added, no `sorry`, no `native_decide`, no `bv_decide`.
* The reading of the Rust code recorded in the model files. There is no mechanical extraction. `seeded/LOG.jsonl` records
  which theorems notice which seeded mistakes in the model.
* The environment assumptions above.
