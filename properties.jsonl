{"id": "C01", "title": "RingBuf delivers exactly the committed samples, in order", "statement": "Calling RingBuf::next repeatedly (dropping each item before the next call) returns exactly the samples that BPF programs submitted, in reservation order, with their exact bytes; discarded reservations are skipped; no sample is lost, repeated, torn or reordered, and next returns None only when the next undelivered reservation is still being written or there is none.", "quantifier": "every interleaving of any number of reserve/submit/discard steps by the kernel with the individual loads and stores of next and of item drop, for every ring size and every sample content, including wrap-around", "why_tests_cant": "A test observes one schedule and one wrap position; the claim ranges over all interleavings with a concurrent kernel producer and unboundedly long histories.", "anchors": ["aya/src/maps/ring_buf.rs: RingBuf::next, RingBufItem::drop, ConsumerPos::consume, ProducerData::next"]}
{"id": "C02", "title": "A held RingBufItem is never overwritten", "statement": "From the moment RingBuf::next returns an item until the item is dropped, the bytes it exposes do not change, whatever the kernel producer does meanwhile.", "quantifier": "every reachable state and every kernel producer step taken while an item is held", "why_tests_cant": "Needs the invariant relating the consumer position to the space the producer may reuse; a test cannot enumerate producer schedules.", "anchors": ["aya/src/maps/ring_buf.rs: RingBufItem, ConsumerPos::consume, ProducerData::next"]}
{"id": "C03", "title": "RingBuf poll/next loop loses no wake-up", "statement": "If RingBuf::next returned None and the consumer then waits for readiness, and afterwards a sample becomes available at the consumer's position, then the kernel sends a wake-up for it: no sample can sit committed at the consumer position with the consumer asleep and no notification sent.", "quantifier": "every interleaving of the consumer's delayed (store-buffered) position store, its fences and loads with the kernel's commit and its notification decision", "why_tests_cant": "It is a store-buffering race that appears on rare schedules and on weakly ordered hardware only.", "anchors": ["aya/src/maps/ring_buf.rs: ProducerData::next, ProducerData::data_available, ConsumerPos::consume"]}
{"id": "C04", "title": "PerfEventArray buffers deliver every record between tail and head", "statement": "Reading events from a perf buffer invokes the callback once per kernel record in order, with a Sample's bytes exactly as written (reassembled when the record wraps around the ring) and a Lost record's count exactly as written, and leaves the tail just after the last record handed out; records of other kinds are skipped.", "quantifier": "every sequence of kernel records, every starting tail position in the ring, every wrap point and every ring size", "why_tests_cant": "Wrap points split records at every possible byte; tests exercise a handful.", "anchors": ["aya/src/maps/perf/perf_buffer.rs: PerfBuffer::read_events, PerfBuffer::try_fold"]}
{"id": "C05", "title": "Stopping a perf read early loses nothing", "statement": "When the callback breaks off after some event, the tail stored for the kernel is just past that event, so a later read continues with the next one: reading in any number of broken-off batches delivers the same event sequence as reading in one go.", "quantifier": "every record sequence and every way of splitting the reading into batches", "why_tests_cant": "Quantifies over all break points of all record sequences.", "anchors": ["aya/src/maps/perf/perf_buffer.rs: PerfBuffer::try_fold"]}
{"id": "C06", "title": "Linked programs call the right function", "statement": "After relocating calls, every local call (or function-pointer load) in the loaded program jumps to the first instruction of the copy of the function it named in the object file, all other instruction fields are unchanged, and the program still starts with its own entry function.", "quantifier": "every object (any set of functions, call graph, relocations and sections) that the linker accepts", "why_tests_cant": "Call graphs, sharing and recursion are unbounded; a wrong displacement is only visible for particular graphs.", "anchors": ["aya-obj/src/relocation.rs: Object::relocate_calls, FunctionLinker::link, FunctionLinker::link_function, FunctionLinker::relocate"]}
{"id": "C07", "title": "Linking copies each reachable function once and terminates", "statement": "For every call graph, including recursive ones, linking terminates; the linked program is the entry function followed by exactly one copy of each function reachable from it by local calls, and nothing else.", "quantifier": "every finite call graph, including cycles, diamonds and self-recursion", "why_tests_cant": "Termination and exact reachability over arbitrary graphs are not testable exhaustively.", "anchors": ["aya-obj/src/relocation.rs: FunctionLinker::link_function, FunctionLinker::relocate"]}
{"id": "C08", "title": "Linking does not depend on the order in which programs are linked", "statement": "The instructions produced for a program do not depend on the order in which the programs of an object are linked (the order is that of a hash map and changes from run to run).", "quantifier": "every object and every pair of orders", "why_tests_cant": "The iteration order is randomised per process; a test sees one order.", "anchors": ["aya-obj/src/relocation.rs: Object::relocate_calls"]}
{"id": "C09", "title": "Function and line info follow the code", "statement": "After linking, each function-info and line-info record of the program points at the instruction it described in the object file: the record's function start is where that function's copy starts and its line offsets keep their distance from it.", "quantifier": "every object with debug info accepted by the linker", "why_tests_cant": "Offsets depend on the whole link layout.", "anchors": ["aya-obj/src/relocation.rs: FunctionLinker::link_func_and_line_info"]}
{"id": "C10", "title": "Map references are patched to the right descriptor and nothing else changes", "statement": "Relocating maps rewrites exactly the instructions that refer to a map: the load gets the file descriptor of the map its symbol names (with the value offset for global data), and every other instruction is left bit-for-bit unchanged.", "quantifier": "every program, relocation table, symbol table and map set", "why_tests_cant": "Universally quantified over instruction streams and relocation tables.", "anchors": ["aya-obj/src/relocation.rs: Object::relocate_maps, relocate_maps"]}
{"id": "C11", "title": "Extern references are patched, weak ones degrade, strong ones fail", "statement": "Relocating externs writes the resolved BTF id or kernel address into the referring instruction pair; an unresolved weak variable reads as 0, an unresolved weak function call is turned into a call that the verifier will reject only if reached, an unresolved strong symbol makes loading fail; all other instructions are unchanged.", "quantifier": "every program, relocation table and extern resolution outcome", "why_tests_cant": "All combinations of weak/strong, typed/typeless, call/load and positions.", "anchors": ["aya-obj/src/relocation.rs: Object::relocate_externs, patch_extern_relocations, poison_kfunc_call"]}
{"id": "C12", "title": "Relocation of maps never panics on accepted objects", "statement": "For every instruction stream and relocation table, relocating maps returns normally with success or an error; it does not panic.", "quantifier": "every program and relocation table, including hostile ones", "why_tests_cant": "Absence of panics over all inputs.", "anchors": ["aya-obj/src/relocation.rs: relocate_maps"]}
{"id": "C13", "title": "BTF serialisation round-trips", "statement": "Serialising BTF and parsing the bytes again yields the same types and strings, for every BTF value.", "quantifier": "every list of types of every kind and every string table, any sizes", "why_tests_cant": "Nineteen kinds with variable-length bodies; unbounded number of types.", "anchors": ["aya-obj/src/btf/btf.rs: Btf::to_bytes, Btf::parse, Btf::read_type_info", "aya-obj/src/btf/types.rs: BtfType::read, BtfType::to_bytes"]}
{"id": "C14", "title": "Sanitised BTF contains only what the kernel supports and keeps type ids", "statement": "Preparing BTF for loading keeps every type id valid with the same meaning (types may only be replaced in place or appended) and the result contains no type kind, function linkage or data-section feature the kernel does not support.", "quantifier": "every BTF and every combination of kernel BTF features", "why_tests_cant": "2^n feature combinations times unbounded type lists.", "anchors": ["aya-obj/src/btf/btf.rs: Btf::fixup_and_sanitize"]}
{"id": "C15", "title": "BTF type resolution terminates at a concrete type", "statement": "Resolving a type through typedefs, qualifiers and tags ends in a type that is none of these, reachable from the start by following those references, or reports an error; it terminates on cyclic BTF.", "quantifier": "every type graph including cyclic and out-of-range references", "why_tests_cant": "Cyclic graphs and unbounded chains.", "anchors": ["aya-obj/src/btf/btf.rs: BtfTypes::resolve_type"]}
{"id": "C16", "title": "BTF type size is the C size of the type", "statement": "Asking the size of a type returns the number of bytes the C type occupies: element count times element size for arrays (of any dimension), the recorded size for structs, unions, enums, integers, floats and data sections, pointer size for pointers.", "quantifier": "every well-formed BTF type graph", "why_tests_cant": "Nested arrays of any depth.", "anchors": ["aya-obj/src/btf/btf.rs: Btf::type_size"]}
{"id": "C17", "title": "BTF string lookup is total", "statement": "Looking up a name offset returns the NUL-terminated string stored at that offset or an error, for every offset; it does not panic.", "quantifier": "every string section (also malformed) and every 32-bit offset", "why_tests_cant": "All offsets and all malformed headers.", "anchors": ["aya-obj/src/btf/btf.rs: Btf::string_at"]}
{"id": "C18", "title": "CO-RE field relocations read the field's value", "statement": "For a (bit)field of the running kernel's type, the relocated byte offset, byte size and the two shift amounts are such that the generated code (load that many bytes at that offset, shift left, shift right) yields the field's value zero- or sign-extended to 64 bits, from any memory contents.", "quantifier": "every field layout (bit offset, bit size, declared type size) accepted, every memory content", "why_tests_cant": "Quantifies over memory contents and all bit positions.", "anchors": ["aya-obj/src/btf/relocation.rs: ComputedRelocation::compute_field_relocation"]}
{"id": "C19", "title": "CO-RE patching touches only the relocated instruction", "statement": "Applying a CO-RE relocation changes only the immediate or offset (and, for memory accesses, the access width) of the relocated instruction to the computed value, or poisons it, or fails; every other instruction and field is unchanged.", "quantifier": "every instruction, relocation outcome and position", "why_tests_cant": "All instruction classes and values including overflow.", "anchors": ["aya-obj/src/btf/relocation.rs: ComputedRelocation::apply, poison_insn"]}
{"id": "C20", "title": "CO-RE access paths resolve to the offset of the same-named field", "statement": "When a local access path matches a candidate kernel type, the computed bit offset is the sum of the offsets of the same-named members along the path in the kernel's type (looking through anonymous structs and unions), plus index times element size for array steps.", "quantifier": "every pair of local and target type graphs and every access string", "why_tests_cant": "Type graphs are unbounded.", "anchors": ["aya-obj/src/btf/relocation.rs: AccessSpec::new, match_candidate, match_member"]}
{"id": "C21", "title": "CO-RE candidate choice is unambiguous", "statement": "A relocation succeeds only when all matching kernel candidates agree on the resulting value and offset; conflicting candidates are reported, and the outcome does not depend on the order of candidates.", "quantifier": "every candidate list", "why_tests_cant": "Order independence over all permutations.", "anchors": ["aya-obj/src/btf/relocation.rs: relocate_btf_functions, find_candidates"]}
{"id": "C22", "title": "Section names select the intended program type", "statement": "A program's section name determines its program type, attach type, sleepable and multi flags as documented, and unknown names are rejected; no section name is silently taken for another type.", "quantifier": "every section name string", "why_tests_cant": "All strings.", "anchors": ["aya-obj/src/obj.rs: ProgramSection::from_str"]}
{"id": "C23", "title": "Overriding a global writes that variable only", "statement": "Setting a global variable before load writes its bytes at the variable's position in its data section and changes no other byte; a size mismatch or (if required) a missing symbol is an error and then nothing is loaded.", "quantifier": "every symbol table, section contents and override set", "why_tests_cant": "All offsets and lengths, including hostile symbol addresses.", "anchors": ["aya-obj/src/obj.rs: Object::patch_map_data", "aya/src/bpf.rs: EbpfLoader::override_global"]}
{"id": "C24", "title": "Instruction streams decode losslessly", "statement": "The bytes of a program section decode to the instruction list whose encoding is those bytes; sections whose size is not a multiple of eight are rejected.", "quantifier": "every byte string", "why_tests_cant": "All byte strings.", "anchors": ["aya-obj/src/obj.rs: copy_instructions"]}
{"id": "C25", "title": "Helper sanitising only downgrades unsupported helpers", "statement": "On kernels without probe_read_{user,kernel}, calls to those helpers become the corresponding legacy helper, and no other instruction changes; on kernels that have them nothing changes.", "quantifier": "every instruction stream and feature combination", "why_tests_cant": "All instruction encodings (a false match would corrupt code).", "anchors": ["aya-obj/src/obj.rs: Object::sanitize_functions, Function::sanitize, insn_is_helper_call"]}
{"id": "C26", "title": "Legacy map definitions are read field-for-field", "statement": "A legacy map definition of at least the minimal size yields the fields in order, with the missing optional fields zero and trailing bytes ignored; shorter ones are rejected.", "quantifier": "every byte string", "why_tests_cant": "All lengths and contents.", "anchors": ["aya-obj/src/obj.rs: parse_map_def"]}
{"id": "C27", "title": "Kernel version comparison and code", "statement": "Kernel version comparison is the lexicographic order on (major, minor, patch), and the version code handed to the kernel equals the kernel's own LINUX_VERSION_CODE for that version.", "quantifier": "every version triple", "why_tests_cant": "Includes the clamped stable releases with patch level above 255.", "anchors": ["aya/src/util.rs: KernelVersion::code, KernelVersion::at_least"]}
{"id": "C28", "title": "CPU range lists denote the right CPUs", "statement": "Parsing the kernel's CPU list (e.g. 0-3,7,10-12) returns exactly the CPUs it denotes in order, and rejects strings that are not such lists.", "quantifier": "every list of ranges (any length, any bounds in u32) and every string", "why_tests_cant": "Unbounded lists.", "anchors": ["aya/src/util.rs: parse_cpu_ranges"]}
{"id": "C29", "title": "Per-CPU values survive the kernel layout", "statement": "Writing per-CPU values and reading them back from the kernel's per-CPU layout returns the same value for each CPU: value i is placed at i times the value size rounded up to 8 and neighbouring values are untouched.", "quantifier": "every value size, number of CPUs and contents", "why_tests_cant": "All sizes and CPU counts.", "anchors": ["aya/src/maps/mod.rs: PerCpuValues::build_kernel_mem, PerCpuValues::from_kernel_mem"]}
{"id": "C30", "title": "Map iteration visits every key once", "statement": "Iterating an unmodified map yields each entry exactly once and ends; if entries are removed concurrently they are skipped without error; an error while advancing to the next key is yielded once and ends the iteration; an error while reading a value is yielded in place of that entry and the iteration goes on.", "quantifier": "every map content, every iteration order chosen by the kernel and every history of concurrent removals and errors", "why_tests_cant": "Arbitrary concurrent modification histories.", "anchors": ["aya/src/maps/mod.rs: MapKeys, MapIter", "aya/src/sys/bpf.rs: bpf_map_get_next_key"]}
{"id": "C31", "title": "Ring buffer sizes are rounded to what the kernel accepts", "statement": "The size used for a ring buffer map is the smallest power-of-two multiple of the page size that is at least the requested size (0 stays 0).", "quantifier": "every 32-bit requested size and every power-of-two page size", "why_tests_cant": "2^32 sizes times page sizes.", "anchors": ["aya/src/bpf.rs: adjust_to_page_size, max_entries_override"]}
{"id": "C32", "title": "Array-like maps reject out-of-range indexes without touching the kernel", "statement": "Every get/set/clear on an index at or beyond the map's size returns OutOfBounds and issues no system call; below it the call is forwarded with exactly that index.", "quantifier": "every index and size", "why_tests_cant": "2^32 x 2^32 combinations over all array-like map types.", "anchors": ["aya/src/maps/mod.rs: check_bounds", "aya/src/maps/array/array.rs: Array::get, Array::set"]}
{"id": "C33", "title": "Read-only data is frozen only after it is filled", "statement": "A map holding initial data is written before the program can see it, and a read-only data map is frozen after the write; if any step fails loading fails.", "quantifier": "every map and every failure point", "why_tests_cant": "Every failure point of the syscall sequence.", "anchors": ["aya/src/maps/mod.rs: MapData::finalize"]}
{"id": "C34", "title": "Every attachment is detached exactly once", "statement": "Across any history of attach, detach, take, forget, unload and drop, each attachment is detached at most once; one that was neither taken nor pinned is detached by the time its program is dropped, and one that was taken stays attached while the taken link is alive.", "quantifier": "every operation history over any number of links", "why_tests_cant": "Histories are unbounded.", "anchors": ["aya/src/programs/links.rs: Links, define_link_wrapper", "aya/src/programs/mod.rs: unload_program"]}
{"id": "C35", "title": "Program load state machine", "statement": "A program can be attached only while loaded; loading twice fails without a second kernel load; a successful unload has detached every link the program still owns before the program is closed, after which the program is not loaded and can be loaded again; if a link cannot be detached, unload says so and the program stays loaded.", "quantifier": "every history of load, attach, detach, unload with arbitrary kernel results", "why_tests_cant": "Unbounded histories with arbitrary kernel failures.", "anchors": ["aya/src/programs/mod.rs: ProgramData, load_program, unload_program"]}
{"id": "C36", "title": "Verifier log retry", "statement": "Loading returns the kernel's result of the last attempt, stops at the first success, retries a failing load with a larger log buffer only when it can help (first failure or truncated log), and makes a bounded number of attempts with a bounded buffer.", "quantifier": "every sequence of kernel results", "why_tests_cant": "Every result sequence.", "anchors": ["aya/src/sys/bpf.rs: retry_with_verifier_logs"]}
{"id": "C37", "title": "Object id enumeration", "statement": "Enumerating loaded programs/maps/links yields every live id exactly once in increasing order and ends; an error is yielded once and ends the enumeration.", "quantifier": "every set of ids and every failure point", "why_tests_cant": "All id sets.", "anchors": ["aya/src/sys/bpf.rs: iter_obj_ids, bpf_obj_get_next_id"]}
{"id": "C38", "title": "TC handles round-trip", "statement": "Splitting a TC handle into major and minor and recombining gives the handle back, and the parent/priority words sent to the kernel carry exactly the priority and protocol given.", "quantifier": "every 32-bit handle and 16-bit priority", "why_tests_cant": "2^32 handles.", "anchors": ["aya/src/programs/tc.rs: TcHandle", "aya/src/util.rs: tc_handler_make"]}
{"id": "C39", "title": "Netlink attributes round-trip", "statement": "Any tree of attributes written into a request can be read back by the attribute iterator exactly as written, including padding and nesting; a request that does not fit is rejected and never overruns the buffer.", "quantifier": "every list of attributes (types, payload lengths, nesting) and buffer size", "why_tests_cant": "All payload lengths and nestings.", "anchors": ["aya/src/sys/netlink.rs: write_attr_bytes, NestedAttrs, NlAttrsIterator"]}
{"id": "C40", "title": "Malformed netlink replies give errors, not misreads", "statement": "Iterating attributes of any received bytes terminates, yields only slices lying inside the buffer, and stops at the first malformed attribute with an error.", "quantifier": "every byte string", "why_tests_cant": "All byte strings.", "anchors": ["aya/src/sys/netlink.rs: NlAttrsIterator::next, NetlinkMessage::read"]}
{"id": "C41", "title": "Netlink replies are collected completely", "statement": "Receiving a reply returns every message of the (multi-part) reply in order until the terminator, whatever the way the kernel splits them into datagrams; a kernel error is reported as an error.", "quantifier": "every list of messages and every split into datagrams", "why_tests_cant": "All splits.", "anchors": ["aya/src/sys/netlink.rs: NetlinkSocket::recv"]}
{"id": "C42", "title": "Log records decode to what was logged", "statement": "A log record written by the eBPF side decodes in user space to the same level, target, module, file, line and the formatted text of the same arguments in order.", "quantifier": "every format string, argument list and value", "why_tests_cant": "All argument lists and values.", "anchors": ["aya-log-ebpf-macros/src/expand.rs: log", "aya-log-common/src/lib.rs: Field, Header", "aya-log/src/lib.rs: log_buf"]}
{"id": "C43", "title": "Accepted log statements never crash the logger", "statement": "Every log statement that compiles yields a record the user-space logger can format; the logger does not panic on it.", "quantifier": "every argument type and display hint accepted by the macros", "why_tests_cant": "All type/hint combinations and lengths.", "anchors": ["aya-log/src/lib.rs: log_buf, Format", "aya-log-common/src/lib.rs: LowerHexFormatter"]}
{"id": "C44", "title": "Log format strings parse to their meaning", "statement": "Parsing a log format string gives the literal text (with {{ and }} unescaped) and the parameters with their display hints in order; strings with unmatched braces or unknown hints are rejected.", "quantifier": "every string", "why_tests_cant": "All strings.", "anchors": ["aya-log-parser/src/lib.rs: parse, push_literal, parse_param"]}
{"id": "C45", "title": "Malformed log records are rejected, not misread", "statement": "Decoding any byte string terminates with a record or an error and reads only inside the buffer.", "quantifier": "every byte string", "why_tests_cant": "All byte strings.", "anchors": ["aya-log/src/lib.rs: log_buf, try_read"]}
{"id": "C46", "title": "Uprobe symbol addresses translate to file offsets", "statement": "A symbol's virtual address is translated to the file offset of the byte that the loader maps at that address.", "quantifier": "every section table and symbol", "why_tests_cant": "All layouts.", "anchors": ["aya/src/programs/uprobe.rs: symbol_translated_address, resolve_symbols_in_object"]}
{"id": "C47", "title": "Uprobe cookies stay with their points", "statement": "Attaching at many points passes to the kernel, for each point, its own offset and its own cookie (0 if it has none when any point has one).", "quantifier": "every list of points", "why_tests_cant": "All lists and positions of the first cookie.", "anchors": ["aya/src/programs/uprobe.rs: resolve_points"]}
{"id": "C48", "title": "/proc/pid/maps lines parse to their fields", "statement": "Every line the kernel prints for a mapping parses to its address range, permissions, offset, device, inode and path, including paths with spaces; other lines are rejected.", "quantifier": "every mapping", "why_tests_cant": "All paths and numbers.", "anchors": ["aya/src/programs/uprobe.rs: ProcMapEntry::parse, split_ascii_whitespace_n"]}
{"id": "C49", "title": "Library lookup in the process map finds the named library", "statement": "Looking up a library by name in a process's maps returns the path of a mapped file whose name is that library's name optionally followed by a version/.so suffix, and only such a path.", "quantifier": "every process map and name", "why_tests_cant": "All maps.", "anchors": ["aya/src/programs/uprobe.rs: find_library_path_by_name"]}
{"id": "C50", "title": "kallsyms resolution", "statement": "A typeless kernel symbol resolves to its address in kallsyms; a symbol listed with two different addresses is an error; a missing strong symbol is an error and a missing weak one resolves to 0.", "quantifier": "every kallsyms listing and set of externs", "why_tests_cant": "All listings.", "anchors": ["aya-obj/src/extern_types.rs: resolve_kallsyms_from_reader, resolve_typeless_externs"]}
{"id": "C51", "title": "Kernel version strings are parsed and sources consulted in order", "statement": "Every kernel release string of the form major.minor.patch not followed by a digit parses to those three numbers; the version used is the Ubuntu signature's, else the Debian one in the uname version, else the uname release.", "quantifier": "every release string and every combination of available sources", "why_tests_cant": "All strings and source combinations.", "anchors": ["aya/src/util.rs: KernelVersion::current, get_kernel_version, parse_kernel_version_string"]}
{"id": "C52", "title": "The kernel symbol table is parsed line by line", "statement": "Parsing a kallsyms listing gives a table that maps an address to the name of a symbol listed at that address, and contains no address that is not listed; a malformed line makes parsing fail.", "quantifier": "every listing", "why_tests_cant": "All listings and line forms.", "anchors": ["aya/src/util.rs: parse_kernel_symbols, kernel_symbols"]}
{"id": "C53", "title": "Object names survive the kernel's fixed-size name field", "statement": "A program or map name handed to the kernel and read back from its info structure is the given name cut to 15 bytes, for every name without NUL.", "quantifier": "every name", "why_tests_cant": "All lengths and contents.", "anchors": ["aya/src/util.rs: bytes_of_bpf_name", "aya/src/sys/bpf.rs: bpf_load_program, bpf_create_map"]}
{"id": "C54", "title": "Section names written by the eBPF-side attribute macros are understood by the loader", "statement": "For every program attribute macro of aya-ebpf (kprobe, uprobe, xdp, fentry, lsm, tracepoint, cgroup_*, sk_*, ...) and whatever function, hook, path, category or offset is given to it, the section name the macro writes is accepted when the object is loaded, is recognised as a program section, and yields a program of the kernel program type, expected attach type, flags (sleepable, XDP fragments) and entry/return kind named by the attribute.", "quantifier": "all attribute macros with all argument combinations and all function/hook/path strings and offsets", "why_tests_cant": "The names embed arbitrary strings; the unit tests of the macros compare a few literal names and never run the loader's parser on them.", "anchors": ["aya-ebpf-macros/src/*.rs: expand", "aya-obj/src/obj.rs: ProgramSection::from_str, EbpfSectionKind::from_name", "aya/src/bpf.rs: EbpfLoader::load"]}
{"id": "C55", "title": "Functions and programs read from an object are exactly its code", "statement": "When a code section is accepted, the functions read from it follow one another without gap or overlap and their code concatenated is the section; each carries the name of the function symbol at its address and has the size of that symbol. A program is exactly the code between the start and the end of its symbol. Symbol tables that do not describe the section are rejected with an error, never with a panic.", "quantifier": "all section contents and all symbol tables", "why_tests_cant": "Symbol order, gaps, overlaps and sizes vary freely; the tests parse a few well-formed sections.", "anchors": ["aya-obj/src/obj.rs: Object::parse_text_section, parse_program, copy_instructions"]}
{"id": "C56", "title": "Map handles behave like maps", "statement": "Against a kernel hash map used by nobody else, every sequence of get, insert (with any flags) and remove on a hash map handle returns exactly what the same operations on a finite map return, iteration yields exactly the current entries, and queues and stacks return the pushed values in FIFO and LIFO order.", "quantifier": "every sequence of operations, every key, value, flag and capacity, every kernel order of entries", "why_tests_cant": "The result depends on the whole history of operations; tests run against mocked system calls one at a time.", "anchors": ["aya/src/maps/hash_map/hash_map.rs:HashMap::get,insert,remove,iter", "aya/src/maps/hash_map/mod.rs:insert,remove", "aya/src/maps/queue.rs", "aya/src/maps/stack.rs"]}
{"id": "C57", "title": "Loading creates, pins and fills exactly the object's maps", "statement": "A successful load has created every map of the object (global data only where the kernel supports it) with the type, sizes, flags and BTF ids of the object after the documented overrides, ordinary maps before maps of maps, each inner map just before its outer map; a map whose pin exists is opened and never created; a created map that is to be pinned is pinned; every map is filled before use and read-only data frozen last; if any of these system calls fails the load fails, and if none fails it succeeds.", "quantifier": "every set of maps in every order, every loader setting and every behaviour of the kernel", "why_tests_cant": "The order of maps is randomised and the outcome depends on each reply of the kernel; tests cannot mock all of them.", "anchors": ["aya/src/bpf.rs:EbpfLoader::load", "aya/src/maps/mod.rs:MapData::create_with_inner_map_fd,create_pinned_by_name,finalize", "aya/src/sys/bpf.rs:bpf_create_map"]}
{"id": "C58", "title": "A map handle knows the sizes of its kernel map", "statement": "The key size, value size and number of entries in a map handle are those of the kernel map behind it, so that typed access passes the kernel buffers of exactly the size it reads and writes, whether the map was created while loading, reused from a pin, or opened by pin, id or descriptor.", "quantifier": "every kernel behaviour, map definition and way of obtaining the handle", "why_tests_cant": "A mismatch is memory corruption by the kernel; a test sees it only for the particular pinned maps it sets up.", "anchors": ["aya/src/maps/mod.rs:MapData::create_pinned_by_name,from_pin,from_id,from_fd,check_kv_size", "aya-obj/src/obj.rs:parse_map_info"]}
{"id": "C59", "title": "Classifiers are found and detached by name", "statement": "Detaching classifiers by name from a hook removes exactly the filters of that hook that carry the name, by their priority and handle, in the order listed, and reports not-found when there is none; filters with other names or of other kinds are left alone and do not get in the way.", "quantifier": "every list of filters attached to the hook, every name, every way the kernel spreads the list over datagrams", "why_tests_cant": "Depends on all filters on the interface, including those of other tools.", "anchors": ["aya/src/programs/tc.rs: qdisc_detach_program", "aya/src/sys/netlink.rs: netlink_find_filter_with_name, netlink_qdisc_detach"]}
{"id": "C60", "title": "Attaching a classifier returns the kernel's priority and handle", "statement": "After a successful netlink attach, the priority and handle in the link are those the kernel chose for the filter; if the kernel reports an error or echoes no filter or several, attaching fails.", "quantifier": "every reply: filters, acknowledgements, errors, split over datagrams in any way", "why_tests_cant": "All replies the kernel may send.", "anchors": ["aya/src/sys/netlink.rs: netlink_qdisc_attach"]}
{"id": "C61", "title": "Type lookup by name and kind returns the right type", "statement": "Asking a BTF object for the id of a type by name and kind returns the smallest id whose type has that kind and that name. If there is none, the error says that the name is unknown. Types of another kind never influence the answer, whatever their names.", "quantifier": "every set of BTF types and strings, every name and every kind", "why_tests_cant": "the tables of real kernels have a hundred thousand types with names shared between kinds; a test sees a few of them", "anchors": ["aya-obj/src/btf/btf.rs: Btf::id_by_type_name_kind", "aya-obj/src/btf/btf.rs: Btf::type_name"]}
{"id": "C62", "title": "Attaching a user space probe is all or nothing, and detaching undoes it", "statement": "If attaching a uprobe or uretprobe at any number of points fails, no file descriptor stays open, nothing more runs and (on kernels with the probe event source) nothing stays registered. If it succeeds, detaching closes exactly the descriptors it opened, whatever else was attached or detached in between. If the kernel supports links on many offsets one link is made; if it does not, one probe per point is made; attaching does not panic.", "quantifier": "all points, targets, scopes and attach modes; all histories of calls and all answers of the kernel, including failure of any call", "why_tests_cant": "which call fails, and how many points were attached before, ranges over all kernels and all histories", "anchors": ["aya/src/programs/uprobe.rs: UProbe::attach, attach_single_impl, attach_multi_impl, should_fallback_to_single", "aya/src/programs/probe.rs: attach_impl, create_as_probe, create_as_trace_point, ManyProbeLinks", "aya/src/programs/perf_attach.rs: attach_bpf_link, attach_perf_event, PerfLink::detach"]}
{"id": "C63", "title": "A bare library name is attached at the file the process or the linker's cache has for it", "statement": "A target that is a path is used as it is; a bare name stands for the library the process has mapped, or else for the first entry of the dynamic linker's cache whose name is that library's. The entries of the cache are those its file holds, in either of its formats; a damaged cache is reported as an error.", "quantifier": "all targets, process maps and cache contents", "why_tests_cant": "cache files vary in format, count, order and damage without bound", "anchors": ["aya/src/programs/uprobe.rs: resolve_attach_target_basename, is_basename_only, LdSoCache::parse, LdSoCache::resolve"]}
{"id": "C64", "title": "CO-RE existence, type and enumerator relocations", "statement": "'Does this field, enumerator or type exist' is relocated to 1 if the running kernel has it and to 0 otherwise; the value of an enumerator to the value the kernel's enumerator of the same name has, extended to 64 bits; the size or id of a type to that of the kernel's type. If what is asked for is missing, the instruction is poisoned, so that a program that checks for existence first still loads.", "quantifier": "every pair of program and kernel type graphs, every enumerator and type", "why_tests_cant": "Type graphs are unbounded; the answer depends on which kernel runs.", "anchors": ["aya-obj/src/btf/relocation.rs: match_candidate, match_enum, compute_enum_relocation, compute_type_relocation", "aya-obj/src/btf/types.rs: types_are_compatible"]}
{"id": "C65", "title": "BTF map definitions are read as written", "statement": "A map declared in the `.maps` section with BTF types gets exactly the type, key and value sizes, key and value type ids, number of entries, flags, extra value, pinning and inner map its declaration says: numbers are the lengths of the arrays pointed to, key and value sizes are the C sizes of the types pointed to, the last line about an attribute counts, unmentioned attributes are zero, unknown members are ignored, and the values of a map of maps are four byte descriptors. A struct whose members do not have these shapes is rejected, and so is an inner map that is pinned or contains maps.", "quantifier": "every BTF type table, every struct in it, every number and order of members", "why_tests_cant": "the compiler chooses ids, order and sharing of types; typedefs and qualifiers nest arbitrarily; a wrong size is only seen as corrupted map values at run time", "anchors": ["aya-obj/src/obj.rs: parse_btf_map_def, parse_btf_map_struct, get_map_field", "aya-obj/src/maps.rs: BtfMapDef, PinningType"]}
{"id": "C66", "title": "The maps of an object are those its sections declare", "statement": "After parsing, the maps found under a name are exactly those declared: one map per data section (its bytes, its size, read-only for programs if it is `.rodata`, zeroes if it is `.bss`), one per symbol of a `maps` section (the definition stored there), and one per variable of a `.maps` section (with that section and the symbol of its name, so that relocations reach it). No map is lost, none is invented, and one declaration does not change another. Parsing never panics.", "quantifier": "every set of sections, symbols and BTF", "why_tests_cant": "sections and symbols come in any order and number, and names may coincide; objects can be damaged in unlimited ways", "anchors": ["aya-obj/src/obj.rs: Object::parse, parse_section, parse_btf_maps, parse_maps_section, parse_data_map_section, parse_map_def"]}
{"id": "C67", "title": "Function, line and CO-RE records reach their function and the kernel as written", "statement": "Parsing `.BTF.ext` accepts every section in the documented format, whatever the sizes of its header and records and wherever its parts lie. Each section's function and line records are found under that section's name, complete and in order, with instruction counts for byte offsets; the CO-RE relocations are exactly those written. When a program is loaded, the kernel reads each of its records as it is in the object and nothing else. Damaged sections are reported as errors, not by panicking.", "quantifier": "every section content, every record size, every number of sections and records", "why_tests_cant": "compilers change header and record sizes, and record counts are unbounded; a misread record shows only as wrong debug information or a rejected program", "anchors": ["aya-obj/src/btf/btf.rs: BtfExt::parse, SecInfoIter, BtfExt::info_data, BtfExt::relocations", "aya-obj/src/btf/info.rs: FuncSecInfo::parse, LineSecInfo::parse, func_info_bytes, line_info_bytes", "aya-obj/src/btf/relocation.rs: Relocation::parse", "aya/src/sys/bpf.rs: bpf_load_program"]}
{"id": "C68", "title": "Attaching an XDP program fills exactly its place, and detaching undoes it", "statement": "Xdp::attach_to_if_index succeeds only if the place of the interface that the flags name (generic, driver or hardware) was free, and then exactly this program sits in it and every other interface and place is unchanged. If it fails nothing has changed. Detaching removes exactly this program; attaching followed by detaching restores the state. Replacing the program of an existing link switches to the new program in one step. This holds whether the kernel has XDP links or only the netlink interface.", "quantifier": "all kernels (with and without links, with and without expected-program checks), all states of all interfaces, all programs, flags and interfaces, all further reasons for which the kernel refuses a call", "why_tests_cant": "The result depends on what other processes have attached and on the kernel version; a test runs on one kernel and with an empty interface.", "anchors": ["aya/src/programs/xdp.rs: Xdp::attach, Xdp::attach_to_if_index, Xdp::attach_to_link, NlLink::detach", "aya/src/sys/netlink.rs: netlink_set_xdp_fd", "aya/src/sys/bpf.rs: bpf_link_create, bpf_link_update"]}
{"id": "C69", "title": "A classifier stands where its link order says", "statement": "SchedClassifier::attach_with_options with a LinkOrder (first, last, before or after a link, a program or a program id) puts the program exactly there in the list of its interface and direction, all other classifiers keeping their order; if the kernel refuses, the lists are unchanged. Detaching takes out exactly this entry; replacing the program of a link keeps its position. Without options a classifier goes last.", "quantifier": "all lists of attached classifiers, all orders, interfaces and directions, all kernels and all further reasons for refusal", "why_tests_cant": "There are unboundedly many lists and positions, and the order is built from a link or program that may change before it is used.", "anchors": ["aya/src/programs/tc.rs: SchedClassifier::attach_with_options, do_attach, attach_to_link", "aya/src/programs/links.rs: LinkOrder", "aya/src/sys/bpf.rs: bpf_link_create"]}
{"id": "C70", "title": "Attaching to a control group, network namespace, socket map or infrared device", "statement": "Attaching a program to an object given by a file descriptor (CgroupSkb, CgroupSock, CgroupSockAddr, CgroupSockopt, CgroupSysctl, CgroupDevice, SockOps, LsmCgroup, FlowDissector, SkLookup, SkMsg, SkSkb, LircMode2) attaches it to this object at the hook of the program, and to nothing else. Programs attached before stay, unless the attach mode or the kind of object leaves room for one only. A control group attached with Single cannot be joined by others; AllowOverride and AllowMultiple allow what they say. If attaching fails nothing has changed, and no descriptor is left open. Detaching takes off exactly this program, even after the caller has closed the descriptor of the object; attaching and detaching restore the former state.", "quantifier": "all kernels (with and without links), all objects and programs attached to them, all modes, all further reasons for which the kernel refuses a call", "why_tests_cant": "What happens depends on what others have attached, on the hierarchy of control groups and on the kernel version; a test sees one kernel and one hierarchy.", "anchors": ["aya/src/programs/cgroup_skb.rs: CgroupSkb::attach", "aya/src/programs/cgroup_sock.rs: CgroupSock::attach", "aya/src/programs/sock_ops.rs: SockOps::attach", "aya/src/programs/sk_lookup.rs: SkLookup::attach", "aya/src/programs/sk_msg.rs: SkMsg::attach", "aya/src/programs/lirc_mode2.rs: LircMode2::attach", "aya/src/programs/links.rs: CgroupAttachMode, ProgAttachLink"]}
{"id": "C71", "title": "The kernel is given the program as it is in the object", "statement": "Loading a program asks the kernel for exactly this program: its instructions, type, attach type, flags, license, version, name (as far as fits), BTF and, for tracing programs and extensions, the id of the function or hook named. It is asked at most eleven times, after the first with a log buffer; the last answer decides. If loading fails the program is as before and can be loaded again. A program that is loaded is not loaded a second time; each load is matched by at most one unload. An extension is attached to the program and function it was loaded for. The license is the C string of the license section, the version the number of the version section.", "quantifier": "all programs, all kernels and answers, all sequences of loads and unloads, all section contents, all BTF sizes", "why_tests_cant": "the kernel's answers, the number of retries and the BTF of the program to extend are not under the control of a test", "anchors": ["aya/src/programs/mod.rs: load_program, unload_program", "aya/src/sys/bpf.rs: bpf_load_program, btf_obj_get_info_by_fd", "aya/src/programs/extension.rs: Extension::load, Extension::attach, Extension::attach_to_program, get_btf_info", "aya/src/programs/fentry.rs: FEntry::load", "aya/src/programs/lsm.rs: Lsm::load", "aya/src/programs/tp_btf.rs: BtfTracePoint::load", "aya-obj/src/obj.rs: parse_license, parse_version"]}
{"id": "C72", "title": "The code of a loaded program is the object's code with every reference resolved", "statement": "When loading an object succeeds up to the point where programs exist, the code of each program is the code the object has for it, followed by one copy of every function it reaches through calls and function pointers. Every instruction is what the object says: a call of or pointer to a function leads to the copy of that function, a reference to a map carries the map's descriptor, a reference to a global variable also the offset of the variable, a reference to a kernel function or variable what is known of it, a call of a helper the kernel lacks calls the older helper, and every other instruction is unchanged. No stage undoes or disturbs what another has done.", "quantifier": "every object: any functions, programs, relocations, symbols, externs and maps; every order of the tables", "why_tests_cant": "The four stages each rewrite the same instructions in place; a test sees a handful of objects, while interference depends on which relocations meet in one function", "anchors": ["aya/src/bpf.rs: EbpfLoader::load (673-689)", "aya-obj/src/relocation.rs: Object::relocate_maps, relocate_externs, relocate_calls", "aya-obj/src/obj.rs: Object::sanitize_functions"]}
{"id": "C73", "title": "Missing BTF stops loading exactly when it is needed", "statement": "If the kernel refuses the BTF of an object, loading fails if the object has CO-RE relocations or a program whose type the kernel only takes with BTF (tracing, LSM, extension), and otherwise behaves as if the object had no BTF. The types of the running kernel are read at most once per loader, only for objects that need them, are kept once read, and their absence is an error only for objects with CO-RE relocations or strong typed kernel symbols.", "quantifier": "every object, loader, sequence of objects loaded with the same loader, and answers of the kernel and of the source of types", "why_tests_cant": "the outcome depends on combinations of object contents, kernel answers and what the loader did before", "anchors": ["aya/src/bpf.rs: EbpfLoader::load, TargetBtf, EbpfLoader::btf, btf_source, extension"]}
{"id": "C74", "title": "Loading an object hands out its programs and maps", "statement": "A successful load hands out one program per program of the object, under its name, of the kind given by its section (or extension, if the user asked for that) with the flags, license, version, log level and BTF to load it with, and one map per map of the object, of the kind given by its type; unsupported map types are an error unless allowed. The code a program is later loaded with is that of the object, with references to maps replaced by the descriptors of the maps handed out.", "quantifier": "every object, loader settings, kernel answers", "why_tests_cant": "names, kinds and descriptors must match for every object, not for one example", "anchors": ["aya/src/bpf.rs: EbpfLoader::load, parse_map", "aya/src/programs/mod.rs: load_program"]}
{"id": "C75", "title": "Typed maps only give the kernel memory of the size it reads and writes", "statement": "A typed map (Array, HashMap, PerCpuArray, CpuMap, StackTraceMap, ...) can only be obtained for a map of its kind whose key and value sizes are those of the type parameters, and every operation on it (lookups, updates, removals, pushes, pops, each step of an iterator) is one call on that map in which each buffer the kernel reads or writes has exactly the size the kernel uses: round_up(value, 8) times the number of CPUs for per-CPU maps, 4 bytes where descriptors or ids are exchanged, the value size otherwise. Operations with an index outside the map, or asking for a program the kernel cannot chain, never reach the kernel.", "quantifier": "all typed maps with all sizes of their type parameters, all maps of the kernel, all operations and arguments, all numbers of CPUs and kernel features", "why_tests_cant": "A wrong buffer size corrupts memory only for particular combinations of map kind, sizes, number of CPUs and kernel version; a test on one machine sees one of them, and often does not notice the corruption.", "anchors": ["aya/src/maps/mod.rs::impl_try_from_map", "aya/src/maps/mod.rs::Map::from_map_data", "aya/src/maps/mod.rs::check_kv_size", "aya/src/maps/mod.rs::impl_creatable_map", "aya/src/maps/mod.rs::PerCpuValues::alloc_kernel_mem", "aya/src/maps/stack_trace.rs::StackTraceMap::new", "aya/src/maps/sock/sock_hash.rs::SockHash::get", "aya/src/sys/bpf.rs::bpf_map_lookup_elem_ptr"]}
{"id": "C76", "title": "A probe, trace point or perf event program runs at exactly what was asked for, and detaching undoes it", "statement": "After KProbe::attach, UProbe::attach, TracePoint::attach, PerfEvent::attach, RawTracePoint::attach or the attach of a tracing program succeeds, the program runs once more than before, on exactly what was asked for: the function and offset, or file, offset, process and cookie, the trace point, the perf event with its processes, sampling and inheritance, or the raw trace point; exactly one new descriptor is open. If attach fails, nothing new is open and nothing new runs. Detaching closes that descriptor and no other, and removes the event definition that was made. This holds whether the probe is made through the kernel's event source or by a line of text in tracefs, and names of definitions never collide.", "quantifier": "all kernel versions and features, requests, texts of names, states of the kernel, answers of system calls, and histories of attaching and detaching", "why_tests_cant": "Which perf_event_attr fields and which text reach the kernel depends on kernel version, kind of probe, name and offset; the tests run on one recent kernel, so the tracefs path is never taken; histories and failing calls are unbounded.", "anchors": ["aya/src/programs/probe.rs: attach, attach_impl, create_as_probe, create_as_trace_point, create_probe_event, delete_probe_event", "aya/src/programs/perf_attach.rs: perf_attach, attach_bpf_link, attach_perf_event, PerfLink::detach", "aya/src/sys/perf_event.rs: perf_event_open, perf_event_open_probe, perf_event_open_trace_point", "aya/src/programs/kprobe.rs: KProbe::attach", "aya/src/programs/trace_point.rs: TracePoint::attach", "aya/src/programs/perf_event.rs: PerfEvent::attach", "aya/src/programs/raw_trace_point.rs: RawTracePoint::attach", "aya/src/programs/utils.rs: attach_raw_tracepoint"]}
{"id": "C77", "title": "A test run is a run of the program on the given data", "statement": "For every loaded program that can be test-run, every input packet and context, output buffers and options: if `TestRun::test_run` succeeds, the kernel ran this program on exactly the given bytes as often as asked (raw trace points: with the twelve arguments in order and on the processor asked for); the return value and sizes reported are those of this run; the output buffers begin with the packet and context left by the run; and no other memory of the process is changed, whether or not it succeeds. A buffer that is too small is an error.", "quantifier": "all programs, inputs, contexts, output buffers (any length), repeat counts, flags, and all answers of the kernel", "why_tests_cant": "whether memory outside the buffers is written depends on the length of the buffer and on what the kernel does with size 0; a test run in unit tests uses a mocked system call that never writes", "anchors": ["aya/src/programs/mod.rs: TestRun, TestRunOptions, test_run, test_run_raw_tp, test_run_tracing", "aya/src/sys/bpf.rs: bpf_prog_test_run, bpf_prog_test_run_raw_tp, bpf_prog_test_run_tracing"]}
{"id": "C78", "title": "Asking what is attached lists everything and changes nothing", "statement": "CgroupDevice::query, LircMode2::query and SchedClassifier::query_tcx return what is attached to the object or interface: every program, in the order of the kernel, as of one moment, however many there are and even if the list changes meanwhile; query_tcx shows the order in which the classifiers run, which is the order asked for when attaching, with the revision of this list. Asking, and dropping the answer, changes nothing that is attached and leaves no descriptor open, whether it succeeds or fails.", "quantifier": "every list of programs, every change of it between the calls, every call of the kernel that may be refused, every interface name and direction", "why_tests_cant": "Long lists, lists that change between two calls, programs that go away between being listed and being opened, and programs of other processes do not occur in tests.", "anchors": ["aya/src/programs/mod.rs: query", "aya/src/sys/bpf.rs: bpf_prog_query, bpf_prog_get_fd_by_id", "aya/src/programs/cgroup_device.rs: CgroupDevice::query", "aya/src/programs/lirc_mode2.rs: LircMode2::query", "aya/src/programs/tc.rs: SchedClassifier::query_tcx"]}
{"id": "C79", "title": "Probes see the arguments and results of the functions they trace", "statement": "In an eBPF program, arg(n) of a kernel or user probe is the value of the traced function's n-th argument for every argument passed in a register and None for the others, ret() of a return probe is its result, arg(n) of programs attached through BTF and of raw trace points is the n-th argument, the result at function exit is the one the function returned, and pid, tgid, uid and gid are those of the current task.", "quantifier": "all architectures supported, all register contents (including unspecified high bits), all argument numbers and all integer and pointer types", "why_tests_cant": "tests run on one architecture with a handful of values; where a register lies and which bits of it count must be right for every architecture, value and type", "anchors": ["ebpf/aya-ebpf/src/args.rs::arg", "ebpf/aya-ebpf/src/args.rs::ret", "ebpf/aya-ebpf/src/args.rs::btf_arg", "ebpf/aya-ebpf/src/args.rs::raw_tracepoint_arg", "ebpf/aya-ebpf/src/args.rs::PtRegsLayout", "ebpf/aya-ebpf/src/programs/fexit.rs::FExitContext::ret", "ebpf/aya-ebpf/src/lib.rs::EbpfContext"]}
{"id": "C80", "title": "Copying and filling memory in eBPF programs is exact", "statement": "The memory functions every eBPF program is linked with do what the compiler expects: memmove moves the bytes however source and target overlap, memcpy copies between disjoint areas, memset fills with the low byte; no other byte changes.", "quantifier": "all memory contents, all addresses and lengths that do not wrap around, all overlaps", "why_tests_cant": "the compiler inserts these calls wherever it likes; tests cannot try all overlaps and lengths, and the direction is chosen by a wrapped difference", "anchors": ["ebpf/aya-ebpf/src/lib.rs::memmove", "ebpf/aya-ebpf/src/lib.rs::memcpy", "ebpf/aya-ebpf/src/lib.rs::memset"]}
{"id": "C81", "title": "Strings and packet bytes read in eBPF programs are the ones in memory and in the packet", "statement": "bpf_probe_read_user_str_bytes and bpf_probe_read_kernel_str_bytes return the string at the address, cut so that the terminator fits, and an error if memory cannot be read; load, load_bytes and store of packet contexts access exactly the bytes at the given offset, never bytes outside the packet or the buffer, and report an error otherwise.", "quantifier": "all strings (empty, longer than the buffer, unterminated), buffers and contents, all packets, all offsets of type usize and all lengths", "why_tests_cant": "off-by-one errors at the terminator, at the end of the buffer and of the packet show only for particular lengths; offsets of 64 bits cannot be enumerated", "anchors": ["ebpf/aya-ebpf/src/helpers.rs::read_str_bytes", "ebpf/aya-ebpf/src/helpers.rs::bpf_probe_read_user_str_bytes", "ebpf/aya-ebpf/src/helpers.rs::bpf_probe_read_kernel_str_bytes", "ebpf/aya-ebpf/src/lib.rs::check_bounds_signed", "ebpf/aya-ebpf/src/programs/sk_buff.rs::SkBuff::load", "ebpf/aya-ebpf/src/programs/sk_buff.rs::SkBuff::load_bytes", "ebpf/aya-ebpf/src/programs/sk_buff.rs::SkBuff::store"]}
{"id": "C82", "title": "A map declared in an eBPF program is created as declared and opens as the typed map of the same name", "statement": "For every map type of aya-ebpf, declared with #[map] or #[btf_map], the loader asks the kernel for a map of that type with keys and values of the sizes the program uses and the declared entries and flags; and the typed map of the same name and type parameters in aya opens the map that was made.", "quantifier": "all map types of maps and btf_maps, all key and value types by size, all numbers of entries and flags, pinned or not, whatever else is in the section, all kernels and their features", "why_tests_cant": "each declaration is read by two crates that share no code; a wrong size or type shows only for the map type and type parameters in question, and only on kernels with or without certain features", "anchors": ["ebpf/aya-ebpf/src/maps/mod.rs::MapDef::new", "ebpf/aya-ebpf/src/maps/mod.rs::map_constructors", "ebpf/aya-ebpf/src/btf_maps/mod.rs::btf_map_def", "aya-obj/src/obj.rs::parse_map_def", "aya-obj/src/obj.rs::parse_btf_map_def", "aya/src/maps/mod.rs::MapData::create", "aya/src/maps/mod.rs::impl_try_from_map"]}
{"id": "C83", "title": "What eBPF programs submit to a ring buffer is what the process reads, in order, and nothing else", "statement": "Whatever programs reserve, write, submit, discard and output, on any CPUs and interleaved in any way with each other and with the process reading: the process gets exactly the submitted and output records, in the order of reservation, each with its length and the bytes written; discarded ones never; when told there is nothing more it has everything before the first open one; and whoever holds an entry can always write it within its bounds, submit or discard it, while refused calls leave no trace.", "quantifier": "all rings of 8 bytes to 1 GiB at every position, all histories of calls of reserve, write, submit, discard and output by any number of programs interleaved at the granularity of memory accesses with the reader, all sizes, contents and flags", "why_tests_cant": "two crates and the kernel cooperate through pointers into shared memory; an error shows only for particular wrap-arounds and interleavings", "anchors": ["ebpf/aya-ebpf/src/maps/ring_buf.rs::RingBuf::reserve_bytes", "ebpf/aya-ebpf/src/maps/ring_buf.rs::RingBufBytes::submit", "ebpf/aya-ebpf/src/maps/ring_buf.rs::RingBuf::output", "ebpf/aya-ebpf/src/btf_maps/ring_buf.rs", "aya/src/maps/ring_buf.rs::RingBuf::next"]}
{"id": "C84", "title": "What eBPF programs output to a perf event array is what the process reads from the buffer of that CPU", "statement": "Whatever buffers the process opens and whatever programs output on whatever CPUs: each buffer's reader gets, in order, the outputs made on its CPU since it was opened and until another was opened for that CPU, each with its payload first (followed by fewer than 8 bytes of padding), and is told how many did not fit exactly where they are missing. Index and flags reach the kernel unmixed. The buffer returned by open receives all events programs send at its index.", "quantifier": "all numbers of CPUs, all histories of opening and outputs by tracing and packet programs on any CPUs at any index, with any data, flags and padding, and any pattern of full buffers", "why_tests_cant": "needs programs on several CPUs and full buffers at particular moments; wrong packing of index and flags shows only for particular values", "anchors": ["ebpf/aya-ebpf/src/maps/perf/perf_event_array.rs::PerfEventArray::output_at_index", "ebpf/aya-ebpf/src/maps/perf/perf_event_byte_array.rs::PerfEventByteArray::output_at_index", "ebpf/aya-ebpf/src/btf_maps/perf_event_array.rs::PerfEventArray::output_at_index", "aya/src/maps/perf/perf_event_array.rs::PerfEventArray::open", "aya/src/maps/perf/perf_buffer.rs::PerfBuffer::try_fold"]}
{"id": "C85", "title": "Information about loaded programs and maps is about them, complete and as the kernel tells it", "statement": "Information obtained for a program or map by handle, pin, id or by listing is that of this program or map: type, id, tag, sizes, creator, name, license, maps, time of loading, locked memory. Listing gives each program or map that stays loaded exactly once, in the order of ids, whatever is loaded and unloaded meanwhile, and ends. An optional field is absent only if the kernel does not tell it. Nothing panics.", "quantifier": "all sets of programs and maps with any contents, loaded and unloaded by other processes at any time between any two system calls; all histories of questions by one process; all failures of system calls; all clocks", "why_tests_cant": "needs other processes to load and unload at particular moments, old kernels, missing rights at the first call only, and the answers depend on caches that live as long as the process", "anchors": ["aya/src/programs/info.rs::ProgramInfo", "aya/src/programs/info.rs::loaded_programs", "aya/src/programs/utils.rs::boot_time", "aya/src/programs/utils.rs::get_fdinfo", "aya/src/maps/info.rs::MapInfo", "aya/src/maps/info.rs::loaded_maps", "aya/src/sys/feature_probe.rs::is_prog_info_map_ids_supported", "aya/src/sys/feature_probe.rs::is_prog_info_license_supported"]}
{"id": "C86", "title": "What the library says about the kernel's abilities is right, and the limit of locked memory is raised when needed", "statement": "is_map_supported, is_program_supported, is_helper_supported and the other probes answer yes exactly if the kernel has the map type, program type, function or feature, when the process may make the calls; in every other case they answer correctly or report an error, never a wrong answer. Features the library relies on are probed once per process and never relied on if the kernel lacks them. On kernels that count locked memory, maps and programs are created whatever their sizes if the limit may be raised; the limit is touched in no other case.", "quantifier": "all kernels (any set of map types, program types, functions, fields, kinds of BTF), all rights, all failures of any call; all sequences of questions with changing rights; all sequences of creations, sizes and limits", "why_tests_cant": "there are as many kernels as configurations and versions; tests run on a few, with rights, without failures and with a high limit", "anchors": ["aya/src/sys/feature_probe.rs::is_map_supported", "aya/src/sys/feature_probe.rs::is_program_supported", "aya/src/sys/feature_probe.rs::is_helper_supported", "aya/src/sys/feature_probe.rs::is_btf_feature_supported", "aya/src/sys/bpf.rs::with_prog_insns", "aya/src/sys/bpf.rs::probe_perf_link", "aya/src/sys/bpf.rs::feature_probe_result", "aya/src/sys/bpf.rs::with_raised_rlimit_retry", "aya/src/kernel_features.rs::FeatureProbe", "aya/src/kernel_features.rs::BtfFeatures"]}
{"id": "C87", "title": "A map used by a process and by programs behaves as one map", "statement": "A process using the typed maps of aya and eBPF programs using those of aya-ebpf see one and the same map: after any sequence of operations of either side, each operation returns what it would return on a single mathematical table (hash map, array, per-CPU array, queue or stack, Bloom filter, prefix table, table of devices) to which all operations were applied in that order. What one side writes the other reads unchanged, refusals (exists, missing, full, out of bounds, bad flags) are reported as such to the side that made the call and change nothing, a packet is redirected exactly when its slot is in use, and references to sockets taken from a map are given back.", "quantifier": "all sequences of operations of both sides, all keys, values, indices, flags, capacities, numbers of CPUs; all prefixes and tables of routes; all interfaces and chained programs", "why_tests_cant": "the two halves are separate libraries compiled for different machines; tests exercise a few keys in a fixed order and never the refusals of the eBPF side", "anchors": ["ebpf/aya-ebpf/src/lib.rs::insert", "ebpf/aya-ebpf/src/maps/hash_map.rs::HashMap", "ebpf/aya-ebpf/src/maps/array.rs::Array", "ebpf/aya-ebpf/src/maps/per_cpu_array.rs::PerCpuArray", "ebpf/aya-ebpf/src/maps/queue.rs::Queue", "ebpf/aya-ebpf/src/maps/stack.rs::Stack", "ebpf/aya-ebpf/src/maps/bloom_filter.rs::BloomFilter", "ebpf/aya-ebpf/src/maps/lpm_trie.rs::LpmTrie", "ebpf/aya-ebpf/src/maps/xdp/dev_map.rs::DevMap", "ebpf/aya-ebpf/src/maps/xdp/mod.rs::try_redirect_map", "ebpf/aya-ebpf/src/maps/sock_map.rs::SockMap::redirect_sk_lookup", "aya/src/maps/hash_map/hash_map.rs::HashMap", "aya/src/maps/array/array.rs::Array", "aya/src/maps/array/per_cpu_array.rs::PerCpuArray", "aya/src/maps/queue.rs::Queue", "aya/src/maps/lpm_trie.rs::LpmTrie", "aya/src/maps/xdp/dev_map.rs::DevMap"]}
{"id": "C88", "title": "Maps stored in maps of maps are the maps that were stored", "statement": "Whatever the order in which a process creates arrays, stores them in an ArrayOfMaps or HashOfMaps, gets them back, drops handles and reads or writes values, and programs read or write values of the stored arrays: every operation returns what it returns when slots and handles simply stand for arrays. A value written through one handle, or by a program, is read through every other handle of that array and by programs wherever the array is stored; a stored array outlives its handles; storing another one in its place takes effect at once and leaves the old one intact for whoever has a handle; get gives a handle for the array stored there, or refuses if the requested type of map does not describe it; and the descriptors that are open are always exactly those of the live handles, one each.", "quantifier": "all sequences of operations of process and programs, all numbers and sizes of inner arrays, all keys and indices, all kinds requested by get, all ways in which the kernel picks ids (reused once a map is gone) and descriptors, including running out of them", "why_tests_cant": "handles are reopened by id, so aliasing, reuse of ids and descriptor leaks show only over long histories of both sides", "anchors": ["aya/src/maps/of_maps/array.rs::ArrayOfMaps", "aya/src/maps/of_maps/hash_map.rs::HashOfMaps", "aya/src/maps/mod.rs::MapData::from_id", "ebpf/aya-ebpf/src/btf_maps/of_maps/array.rs", "ebpf/aya-ebpf/src/btf_maps/of_maps/hash_map.rs"]}
{"id": "C89", "title": "Pinned programs, maps and links are what was pinned, for as long as they are pinned", "statement": "Pinning a program, map or link gives a file that stands for that object until the file is removed, whatever happens to the handles, and the object lives exactly as long as a handle, a file or a link refers to it. Opening the file gives a handle on the same object, and only if it is of the kind asked for. A pin that is refused changes nothing; unpinning removes the file the program was pinned to or opened from, and no other; a failed unpin can be tried again; bad paths are reported as errors. No descriptor stays open without a handle.", "quantifier": "all histories of loading, attaching, pinning, opening, unpinning, unloading and dropping programs, maps and links, with other processes pinning and removing files and any system call failing at any step; all paths", "why_tests_cant": "tests pin and open in one fixed order on a working bpffs; failing calls, paths in use, and files of other processes do not occur in them", "anchors": ["aya/src/programs/mod.rs::pin_program", "aya/src/programs/mod.rs::ProgramData::from_pinned_path", "aya/src/programs/mod.rs::impl_program_pin", "aya/src/programs/mod.rs::impl_from_pin", "aya/src/programs/mod.rs::impl_from_prog_info", "aya/src/programs/mod.rs::unload_program", "aya/src/maps/mod.rs::MapData::pin", "aya/src/maps/mod.rs::MapData::from_pin", "aya/src/programs/links.rs::FdLink::pin", "aya/src/programs/links.rs::PinnedLink"]}
{"id": "C90", "title": "The kernel functions and variables an object declares are the kernel's own, of the declared type", "statement": "The externs of an object are exactly the functions and variables in its .ksyms section, each weak or not as its symbol is declared. An extern with a type is bound to the kernel's function or variable of its name, and only if the types are the same; one that is missing or of another type is an error unless it is weak, in which case it stays unbound. Whatever the object declares, the section is then given to the kernel in the form it accepts (global variables of four bytes, one after the other, filling the section), and nothing else about the object's types changes in a way that matters when they are compared.", "quantifier": "all BTF of objects and kernels, all symbol tables, all names with and without flavour suffixes", "why_tests_cant": "the declared names and types and the kernel's BTF vary without bound; tests have a handful of functions and one kernel", "anchors": ["aya-obj/src/btf/extern_types.rs::Btf::create_ksym_func_placeholder", "aya-obj/src/btf/extern_types.rs::Btf::process_datasec_entry", "aya-obj/src/btf/extern_types.rs::Object::collect_ksyms_from_btf", "aya-obj/src/extern_types.rs::Object::resolve_typed_externs", "aya-obj/src/extern_types.rs::Object::resolve_extern_function", "aya-obj/src/extern_types.rs::Object::resolve_extern_variable", "aya-obj/src/btf/btf.rs::Btf::fixup_ksyms_datasec"]}
{"id": "C91", "title": "Attribute macros accept exactly the documented arguments, in any order, and make the program they ask for", "statement": "Each attribute macro for programs accepts exactly the arguments it is documented to take: every argument known and given at most once, values well formed (numbers, attach types, map kinds), separated by commas in any order. Every accepted argument counts. The function is then put into a section which the loader recognises as a program of the type of the macro, loaded as the arguments ask for and attached at the entry or the return as the macro says; the function is called with the context of that kind of program, and its result is the result of the program exactly if programs of that kind decide something. A map declared with map or btf_map is found by the loader under its name argument or else its own name.", "quantifier": "all macros, all sequences of tokens between the parentheses, all names and values", "why_tests_cant": "token sequences, names, orders and combinations of arguments are unbounded; tests try a few spellings of each macro", "anchors": ["aya-ebpf-macros/src/args.rs::Args", "aya-ebpf-macros/src/args.rs::Args::pop_string", "aya-ebpf-macros/src/args.rs::Args::pop_bool", "aya-ebpf-macros/src/args.rs::Args::into_error", "aya-ebpf-macros/src/kprobe.rs::KProbe", "aya-ebpf-macros/src/uprobe.rs::UProbe", "aya-ebpf-macros/src/xdp.rs::Xdp", "aya-ebpf-macros/src/tracepoint.rs::TracePoint", "aya-ebpf-macros/src/cgroup_sock_addr.rs::CgroupSockAddr", "aya-ebpf-macros/src/map.rs::Map", "aya-ebpf-macros/src/lib.rs"]}
{"id": "C92", "title": "Socket filters and selectors go into the slot meant, for the socket or group meant, and stay there", "statement": "A program can be attached as a filter of a socket or as a selector of its SO_REUSEPORT group: a socket filter both ways, whichever of its two types it is taken as, an SkReuseport program as a selector only, any other program not at all; an unloaded one is refused. An attached filter replaces the one the socket has and stays in effect until the socket is given another filter or none, even if the program is unloaded, dropped or loaded again, its descriptor number used for something else, or selectors come and go. A selector attached through one socket is that of all sockets of its group and of no other group, and detaching through any socket of the group clears it. Filters and selectors never touch each other, and a call which fails changes nothing; refusals by the system are reported with the option and the error code.", "quantifier": "all histories of loading, unloading, dropping, attaching and detaching programs and of opening, grouping, locking and closing sockets, all descriptor numbers and reuses of them, all failures of the system", "why_tests_cant": "the history, the numbers descriptors get and the system's failures are unbounded; tests attach one program to one socket", "anchors": ["aya/src/programs/socket_filter.rs::SocketFilter::attach", "aya/src/programs/socket_filter.rs::SocketFilter::detach", "aya/src/programs/socket_filter.rs::ReusePortSocketFilter::attach", "aya/src/programs/socket_filter.rs::ReusePortSocketFilter::detach", "aya/src/programs/sk_reuseport.rs::SkReuseport::attach", "aya/src/programs/sk_reuseport.rs::SkReuseport::detach", "aya/src/programs/mod.rs::ProgramData::unload"]}
{"id": "C93", "title": "What programs log arrives once, whole and in order", "statement": "However log statements of programs on any number of CPUs are interleaved with one another and with the process, the logger is given the messages of the statements that were given a place in the ring, in the order of their beginning, each exactly once, never a part of one, each with its own text, level, target, module, file and line. When flush returns, every statement up to the first one still being carried out has been logged, and the process is notified of what comes later. A statement is dropped only if its level is off, it is too long or the ring is full, and then leaves no trace; one that is not dropped can always go on to its end without waiting for anyone. No statement of a program makes the logger panic or keeps the statements of other programs from being logged.", "quantifier": "all schedules of any number of statements, any format strings and values, any positions and contents of the ring of any size, all points at which the process reads", "why_tests_cant": "the interleavings of writers on several CPUs with a reader are unbounded, and tests log from one program at a time", "anchors": ["aya-log-ebpf-macros/src/expand.rs::log", "ebpf/aya-log-ebpf/src/lib.rs::macro_support::level_enabled", "aya-log-common/src/lib.rs::Field::with_bytes", "aya-log-common/src/lib.rs::Header::with_bytes", "aya-log/src/lib.rs::EbpfLogger::flush", "ebpf/aya-ebpf/src/maps/ring_buf.rs::RingBuf::reserve_bytes", "aya/src/maps/ring_buf.rs::RingBuf::next"]}
{"id": "C94", "title": "Generated bindings are what was asked for", "statement": "For any header or BTF, any types and any further flags: aya-tool runs bindgen on exactly the header made of the BTF by bpftool, or on the header given; bindgen is asked for each type, in order, for everything the library and the user ask for, in order, with one prefix for C types, the user's if there is one; clang gets the library's arguments and then the user's. What bindgen says is given back unchanged, every failure is told as what it is, nothing panics on valid text, and a header bindgen accepts where it lies is accepted.", "quantifier": "all flags, types, headers and outcomes of the two commands", "why_tests_cant": "the flags of the user are any list of words, tests show single lists", "anchors": ["aya-tool/src/generate.rs::generate", "aya-tool/src/generate.rs::extract_ctypes_prefix", "aya-tool/src/generate.rs::combine_flags", "aya-tool/src/generate.rs::c_header_from_btf", "aya-tool/src/bindgen.rs::bpf_builder"]}
{"id": "C95", "title": "Tail calls go to the program that was set", "statement": "For any tables, programs, order of operations, failures of system calls and programs at work meanwhile: after set of a ProgramArray succeeded a tail call through that index of that table goes to that program, with the context of the caller, until the index is set or cleared again, even after the program's descriptor is closed; a call that failed changed nothing; through an index without a program, outside the table, or after 33 tail calls the caller goes on; tail calls never go on for ever; indices gives the indices that point to a program.", "quantifier": "all histories of tables, programs, pins and tail calls on any number of CPUs, all failures", "why_tests_cant": "the table is shared between user space and programs at work on other CPUs; tests show one order of events", "anchors": ["aya/src/maps/array/program_array.rs::ProgramArray", "aya/src/maps/hash_map/mod.rs::insert", "aya/src/maps/hash_map/mod.rs::remove", "aya/src/maps/mod.rs::MapKeys", "ebpf/aya-ebpf/src/maps/program_array.rs::ProgramArray::tail_call", "ebpf/aya-ebpf/src/btf_maps/program_array.rs::ProgramArray::tail_call"]}
{"id": "C96", "title": "Helpers give and show what there is", "statement": "For any arguments: a message printed with bpf_printk! is the format with each directive showing the number its argument is, for up to twelve arguments of any types, and more are refused; bpf_strncmp orders the strings as a dictionary does; bpf_get_current_comm gives the name of the task with a NUL; bpf_probe_read and its variants give all bytes at the address in the memory meant or an error; bpf_probe_write_user writes all bytes of the value or is an error, and touches no other byte.", "quantifier": "all formats with integers, characters and pointers, all argument types and values, all strings, all memories", "why_tests_cant": "signedness, width and register passing combine; tests try a few values", "anchors": ["ebpf/aya-ebpf/src/helpers.rs::bpf_printk_impl", "ebpf/aya-ebpf/src/helpers.rs::PrintkArg", "ebpf/aya-ebpf/src/helpers.rs::bpf_strncmp", "ebpf/aya-ebpf/src/helpers.rs::bpf_get_current_comm", "ebpf/aya-ebpf/src/helpers.rs::bpf_probe_read", "ebpf/aya-ebpf/src/helpers.rs::bpf_probe_write_user"]}
{"id": "C97", "title": "Socket maps hold the sockets put in them", "statement": "Whatever is done to socket maps and sockets: a socket put in a SockMap, SockHash or ReusePortSockArray with success is there under its index or key, and only that entry has changed; it stays there while a descriptor of it is open and it is connected, until the entry is set or cleared; it leaves all maps when it is closed; a call that fails changes nothing. indices gives the indices that point to a socket. Programs send packets to the socket under the key, or are told there is none, and a socket lookup gives back every reference it takes.", "quantifier": "all histories of opening, connecting, cloning and dropping sockets, and of calls on maps by process and programs, with faults at any point, all keys and flags", "why_tests_cant": "which sockets are in a map depends on the whole history of descriptors and connections", "anchors": ["aya/src/maps/sock/sock_map.rs::SockMap", "aya/src/maps/sock/sock_hash.rs::SockHash", "aya/src/maps/sock/reuseport_sock_array.rs::ReusePortSockArray", "ebpf/aya-ebpf/src/maps/sock_map.rs::SockMap", "ebpf/aya-ebpf/src/maps/sock_hash.rs::SockHash", "ebpf/aya-ebpf/src/maps/reuseport_sock_array.rs::ReusePortSockArray"]}
{"id": "C98", "title": "Buffers map memory, stay within it, and give it back", "statement": "Whatever ring buffers and perf buffers are opened, read and dropped, and wherever calls fail: no access to memory is outside of what the buffer has mapped, none writes to what is read-only, none is unaligned; buffers never share memory or descriptors; a call that fails leaves nothing mapped, open or enabled; when all handles are dropped, memory, descriptors and events are as before. A perf buffer has the number of pages asked for. A ring buffer is read where the kernel writes.", "quantifier": "all histories of opening, reading, releasing items and dropping, with faults at any point; all contents of the shared memory of ring buffers; all records of perf buffers that keep the kernel's promises; all page sizes and places", "why_tests_cant": "whether an access is within a mapping depends on positions and contents that the kernel writes, and leaks only show after failures", "anchors": ["aya/src/util.rs::MMap", "aya/src/maps/ring_buf.rs::RingBuf", "aya/src/maps/ring_buf.rs::ProducerData", "aya/src/maps/perf/perf_buffer.rs::PerfBuffer", "aya/src/maps/perf/perf_event_array.rs::PerfEventArray"]}
{"id": "C99", "title": "Contexts tell programs what the kernel has, and what is changed through them is what was asked for", "statement": "The methods of the contexts of packets, XDP programs, messages, socket operations and socket selection give what the kernel has: lengths, addresses, ports, interfaces, arguments, sockets. What is set through them is set, and nothing else. Bytes pushed into messages and popped are the ones asked for. Programs that rewrite fields of packets and have checksums replaced leave packets whose checksums are valid, for one checksum and for two over the same field, also where zero means that there is none. Calls that fail change nothing.", "quantifier": "all states of the kernel's objects, all indices, values and flags; all packets, all checksums over words of them (with or without pseudo header), all fields of two or four bytes and new values, all sequences of rewrites", "why_tests_cant": "one's complement sums agree for most values even with wrong arithmetic; offsets in generated structures are not tested at all; the kernel's side cannot run in unit tests", "anchors": ["ebpf/aya-ebpf/src/programs/sk_buff.rs::SkBuff", "ebpf/aya-ebpf/src/programs/xdp.rs::XdpContext", "ebpf/aya-ebpf/src/programs/sk_msg.rs::SkMsgContext", "ebpf/aya-ebpf/src/programs/sk_reuseport.rs::SkReuseportContext", "ebpf/aya-ebpf/src/programs/sock_ops.rs::SockOpsContext", "ebpf/aya-ebpf/src/programs/flow_dissector.rs::FlowDissectorContext", "ebpf/aya-ebpf-bindings/src/x86_64/bindings.rs::__sk_buff"]}
{"id": "C100", "title": "Values kept for sockets, inodes and cgroups are those that were stored, and tasks are under the cgroups of arrays", "statement": "A value that the process stores for a socket, an inode or a cgroup is read back, through any descriptor of the object and of the map, until it is replaced, removed or written to; what is removed is gone. Programs are given pointers to those values, made of zeros or of what they say if there are none; what they write through them is what the process reads. The same holds for values kept for a cgroup and a type of attachment, one for all CPUs or one for each. A program that asks whether a task or packet is under a cgroup of an array is told so exactly if its cgroup is the one the process put there, or below it, also after the process has closed it. Calls that are refused change no value.", "quantifier": "all histories of the process and of programs over any number of maps, objects, descriptors and CPUs, with any numbers of descriptors, any call of the system failing, any bytes in padding", "why_tests_cant": "needs kernel objects and programs at work at the same time; which values and pointers survive which operations depends on the whole history", "anchors": ["aya/src/maps/sk_storage.rs::SkStorage", "aya/src/maps/inode_storage.rs::InodeStorage", "aya/src/maps/cgrp_storage.rs::CgrpStorage", "aya/src/maps/cgroup_storage.rs::CgroupStorage", "aya/src/maps/cgroup_storage.rs::PerCpuCgroupStorage", "aya/src/maps/array/cgroup_array.rs::CgroupArray", "ebpf/aya-ebpf/src/btf_maps/sk_storage.rs::SkStorage", "ebpf/aya-ebpf/src/btf_maps/cgroup_array.rs::CgroupArray", "ebpf/aya-ebpf/src/maps/cgroup_storage.rs::CgroupStorage"]}
{"id": "C101", "title": "Packets are redirected where the maps say", "statement": "An entry of a map of devices, of CPUs or of sockets is what it was last set to by a call that succeeded, until it is removed or its target is gone. Reading it from the process or from a program gives this interface or queue and the id of this program. A program that redirects a packet by the map sends it there: out of that interface or to that CPU, after the program that was given with the entry, even if its descriptor is closed since; to that socket, if the packet came in where the socket is bound. A packet for all interfaces goes to those in the map, and not back if asked so. If there is no entry the program gets the action in the flags. Interfaces that are not there, indices out of bounds and programs that were not made for the purpose are refused, and nothing changes. On kernels that do not know of programs in maps, entries work without, and setting one with a program is refused.", "quantifier": "all histories of making maps, loading programs, opening, duplicating and closing sockets, plugging and unplugging interfaces, setting, removing and reading entries and redirecting packets, with any numbers of maps, entries, flags and descriptors, on kernels with and without support for programs in maps", "why_tests_cant": "needs interfaces, sockets and packets in a kernel, of different versions; where a packet goes depends on all that happened before", "anchors": ["aya/src/maps/xdp/dev_map.rs::DevMap", "aya/src/maps/xdp/dev_map_hash.rs::DevMapHash", "aya/src/maps/xdp/cpu_map.rs::CpuMap", "aya/src/maps/xdp/xsk_map.rs::XskMap", "aya/src/bpf.rs::EbpfLoader", "ebpf/aya-ebpf/src/maps/xdp/mod.rs::try_redirect_map", "ebpf/aya-ebpf/src/maps/xdp/dev_map.rs::DevMap", "ebpf/aya-ebpf/src/btf_maps/xsk_map.rs::XskMap"]}
{"id": "C102", "title": "Links stand for their attachments, whatever they are turned into", "statement": "A link at hand, of whatever type, stands for attachments that are in effect, and an attachment is in effect exactly as long as a link at hand or a file stands for it: nothing stays attached that nobody can detach, nothing is detached that somebody still holds, and no descriptor is lost. A typed link that is a descriptor becomes an FdLink and back without anything changing in the kernel; an FdLink becomes a typed link exactly if the kernel says it is of that type, and tells the id, program and type of its link truthfully. The link of a user probe at many places gives an FdLink for every place or is handed back. The output of an iterator can be had of its link and outlives it. A conversion that fails leaves the attachment as it was.", "quantifier": "all histories of attaching, converting, pinning, unpinning, opening, detaching and dropping links of all types, however the programs are attached and whichever calls the kernel refuses", "why_tests_cant": "which kernel object backs a link depends on the kernel version, and on a recent one the netlink, perf event and BPF_PROG_ATTACH cases never occur; what is attached depends on the whole history", "anchors": ["aya/src/programs/links.rs::FdLink", "aya/src/programs/links.rs::PinnedLink", "aya/src/programs/links.rs::impl_try_into_fdlink", "aya/src/programs/links.rs::impl_try_from_fdlink", "aya/src/programs/uprobe.rs::UProbeLink", "aya/src/programs/probe.rs::ProbeLinkInner", "aya/src/programs/iter.rs::IterLink", "aya/src/programs/tc.rs::SchedClassifierLink", "aya/src/programs/xdp.rs::XdpLink", "aya/src/programs/perf_attach.rs::PerfLink"]}
{"id": "C103", "title": "A map got from a map of maps is the one stored there, also while others change it", "statement": "ArrayOfMaps::get and HashOfMaps::get, called while other threads and processes create, open, close, store, replace and remove maps, hand out the map that was stored at that place at some moment during the call, whatever its kind, if the type asked for describes it, and fail otherwise: because nothing was stored there, because the type does not fit, or because there is no descriptor left. As long as a map of that type is stored there and there is a descriptor left, get succeeds. A failed get leaves no descriptor open. set and insert store the given map at that place, or change nothing.", "quantifier": "all states others can bring about, all they can do before, between and after the system calls of the operation, all kinds of inner maps and types asked for, all ways the kernel picks ids (none in use twice) and descriptors", "why_tests_cant": "get looks up an id and opens it in another call; what happens in between depends on the scheduler, and whether an id comes again on how many maps were created", "anchors": ["aya/src/maps/of_maps/mod.rs::map_from_id", "aya/src/maps/of_maps/array.rs::ArrayOfMaps::get", "aya/src/maps/of_maps/hash_map.rs::HashOfMaps::get", "aya/src/maps/mod.rs::MapData::from_id"]}
{"id": "C104", "title": "A ring buffer may be opened more than once", "statement": "Any number of RingBufs for one ring may be open at once, made from a shared reference to the map, by pin or id, or by attaching a second logger. Together they deliver every submitted record once, in order and unaltered, and nothing else; an item that is held does not change; none panics or reads outside the ring; space is reused once every record was read and released; a reader that was told that the ring is empty is notified of the next record.", "quantifier": "all numbers of readers, all interleavings of their steps with each other, with their delayed stores and with the kernel, all ring sizes and contents", "why_tests_cant": "whether readers get in each other's way depends on the order of loads and stores to a page they share and on how far the ring has wrapped", "anchors": ["aya/src/maps/ring_buf.rs::RingBuf::next", "aya/src/maps/ring_buf.rs::ConsumerPos::new", "aya/src/maps/ring_buf.rs::ConsumerPos::consume", "aya/src/maps/mod.rs::impl_try_from_map", "aya-log/src/lib.rs::EbpfLogger::init_from_id_with_logger"]}
{"id": "C105", "title": "Attaching a logger by program id reads the log of that program", "statement": "EbpfLogger::init_from_id succeeds exactly if the program is loaded and uses a ring buffer called AYA_LOGS that may be opened, and then reads that ring buffer. Otherwise it returns ProgramNotFound if and only if there is no such program, MapNotFound if and only if the program uses no such map, and the error of the call that failed in all other cases; a map of another type is refused.", "quantifier": "all programs and maps loaded, all loading and unloading by other processes during the call, all failures of single calls, all earlier questions asked by the process", "why_tests_cant": "the search makes a call for every program of the machine, any of which may fail or race with another process", "anchors": ["aya-log/src/lib.rs::EbpfLogger::init_from_id_with_logger", "aya-log/src/lib.rs::EbpfLogger::new", "aya/src/programs/info.rs::ProgramInfo::map_ids", "aya/src/maps/mod.rs::MapData::from_id", "aya/src/maps/ring_buf.rs::RingBuf::new"]}
{"id": "C106", "title": "Building eBPF crates puts every binary of every package, built for the right target, into OUT_DIR", "statement": "build_ebpf returns Ok only if every binary of every given package was built, with exactly the given features, for the eBPF target of the endianness and architecture of the crate being built, and is in OUT_DIR under its name; it succeeds if cargo does, returns whatever cargo prints and in whatever order, and passes every line on. Outside of it, the crates take the architecture of the host, and have the C types of that architecture.", "quantifier": "all lists of packages and features, all environments, all outputs of cargo and their interleavings with the reading threads, all pipe sizes, all hosts Rust has", "why_tests_cant": "cargo's output is unbounded and read by two threads through bounded pipes, and names of packages, binaries and hosts are open ended", "anchors": ["aya-build/src/lib.rs::build_ebpf", "aya-build/src/lib.rs::emit_bpf_target_arch_cfg", "aya-build/src/lib.rs::target_arch_fixup", "ebpf/aya-ebpf-cty/src/lib.rs::c_char"]}
{"id": "C107", "title": "A stack id stands for the stack it was given for", "statement": "The id a program gets from get_stackid gives, in the process, the frames of the stack it was given for, innermost first and all of them, until the stack is removed or replaced on request; get never returns anything but the frames of one stack a program asked an id for, returns KeyNotFound only if there is none of this id, and stays within its buffer; iterating yields every stack once; remove removes the stack and no other.", "quantifier": "all stacks, flags, hash functions, sizes of maps, and all interleavings of programs on other CPUs and of readers in this and other processes", "why_tests_cant": "programs and readers on all CPUs work on the same buckets at once, and collisions depend on the hash of the stacks", "anchors": ["aya/src/maps/stack_trace.rs::StackTraceMap::get", "aya/src/maps/stack_trace.rs::StackTraceMap::iter", "aya/src/maps/stack_trace.rs::StackTraceMap::remove", "ebpf/aya-ebpf/src/programs/tracing.rs::StackIdContext::get_stackid"]}
{"id": "C108", "title": "A log statement does nothing to the program but log", "statement": "A log statement whose level is enabled evaluates its level, context, target and all its arguments once each, in this order, with the meaning their names have where the statement stands, and then sends at most one record, which says what the statement says of these values; its value is (), and the program goes on behind it unless one of the expressions leaves the function. A statement whose level is not enabled evaluates the level only. Whatever is given to a statement counts, or it does not compile.", "quantifier": "all statements, expressions with effects and log statements of their own, scopes, memories and states of the ring", "why_tests_cant": "the expressions, the names in scope and what they do are the user's", "anchors": ["aya-log-ebpf-macros/src/expand.rs::log", "aya-log-ebpf-macros/src/expand.rs::LogArgs", "ebpf/aya-log-ebpf/src/lib.rs::level_enabled", "aya-log-common/src/lib.rs::Header", "aya-log-common/src/lib.rs::Field"]}
{"id": "C109", "title": "The list of links tells the truth and leaves no link behind", "statement": "However other processes attach, open, give up and update links while loaded_links is read, and whichever calls fail, the links it gives are in the order of their ids, each once; each was there at a moment of the list, with the program and type given; a list that ends without an error, other than of links that went away meanwhile, has each link that was there all the time; each error has a reason; the list ends if ids are bounded; and however far the list is read, no descriptor is left, so that no link lives longer than others refer to it. The list is that of one moment, and reading it has no effect on links.", "quantifier": "all states of the kernel, sequences of actions of others between any two system calls, failures of calls, and prefixes of the list", "why_tests_cant": "other processes act between the calls of one step of the list", "anchors": ["aya/src/programs/mod.rs::loaded_links", "aya/src/sys/bpf.rs::iter_obj_ids", "aya/src/sys/bpf.rs::bpf_link_get_fd_by_id", "aya/src/sys/bpf.rs::bpf_link_get_info_by_fd", "aya/src/programs/links.rs::LinkInfo", "aya-obj/src/links.rs::bpf_link_type"]}
{"id": "C110", "title": "Nothing but what is pinned is left when the process ends", "statement": "At whichever system call a process ends, and whichever of its calls fail: what runs afterwards ran before, or is pinned, or was attached in a way that has no link on that kernel; pinned links run on until they are unpinned, with their program or one they were updated to; entries of probes are left only on kernels before 4.17; what was attached and dropped does not run. Replacing a pinned program in the documented way leaves no moment without a program, and can be done at each start. Nothing is left of a process that pinned nothing.", "quantifier": "all sequences of attach, drop, pin, unpin, open, update and starting other programs, families of programs, kernels, failures of calls, and moments at which the process ends", "why_tests_cant": "a process can be ended before each of its system calls, on kernels of all versions", "anchors": ["aya/src/programs/links.rs::FdLink", "aya/src/programs/links.rs::PinnedLink", "aya/src/programs/links.rs::ProgAttachLink", "aya/src/programs/perf_attach.rs::perf_attach", "aya/src/programs/probe.rs::attach_impl", "aya/src/programs/xdp.rs::attach_to_if_index", "aya/src/programs/tc.rs::attach_to_link", "aya/src/programs/perf_event.rs::attach", "aya/src/programs/lirc_mode2.rs::LircLink"]}
{"id": "C111", "title": "Statistics measure the runs of a period", "statement": "If statistics are enabled, and the information of a program is read, and read again after a period, the difference of run_count is the number of runs of the program in the period and that of run_time the time they took, however programs run on all processors meanwhile, also while the numbers are read; statistics are tracked no longer when the descriptor is dropped, also after an error; errors are those of the calls that failed. Counters do not change while the descriptor is not held.", "quantifier": "all runs of programs on any number of processors, all interleavings with the readings, others that enable and disable statistics, and failures of calls", "why_tests_cant": "programs run while the numbers of the processors are added up one after the other", "anchors": ["aya/src/sys/mod.rs::enable_stats", "aya/src/sys/mod.rs::Stats", "aya/src/sys/bpf.rs::bpf_enable_stats", "aya/src/programs/info.rs::run_time", "aya/src/programs/info.rs::run_count"]}
{"id": "C112", "title": "Objects with pinned maps can be loaded again and again", "statement": "However often objects with maps pinned by name are loaded, by however many processes, whose system calls may be interleaved, fail or be cut off by the end of the process: a map that is pinned stays what is pinned at its path; each process that has loaded its object has the maps that are pinned at the paths and shares them with all others; loading does not change what is in a map that others use; loading succeeds again after any such history; and the map that is taken is as the object declares it.", "quantifier": "all objects, all numbers of processes, all interleavings of their system calls, all failures and all points at which a process may be ended", "why_tests_cant": "the schedules and crash points of several processes cannot be enumerated, and each of them leaves its own state in the kernel", "anchors": ["aya/src/bpf.rs::EbpfLoader::load", "aya/src/maps/mod.rs::MapData::create_pinned_by_name", "aya/src/maps/mod.rs::MapData::finalize", "aya/src/maps/mod.rs::MapData::pin"]}
{"id": "C113", "title": "Classifier links can be kept as parameters and made again", "statement": "The interface, attach type, priority, handle and class of a classifier link attached through netlink can be kept, and a link made of them later, by another process and after whatever has happened since, stands for the same filter: detaching or dropping it removes that filter and no other, replacing its program puts the new program in its place with the same numbers and class and touches nothing else, and parameters that stand for no filter give errors and change nothing. Attaching adds exactly one filter, whose numbers the link has, or fails without effect.", "quantifier": "all states of the kernel's filters, all interfaces, priorities, handles and classes, and all changes by others between keeping the parameters and using them", "why_tests_cant": "what others do to the filters and interfaces between two processes has no bound", "anchors": ["aya/src/programs/tc.rs::SchedClassifierLink::attached", "aya/src/programs/tc.rs::SchedClassifierLink::priority", "aya/src/programs/tc.rs::SchedClassifier::attach_to_link", "aya/src/programs/tc.rs::NlLink", "aya/src/programs/links.rs::Links::insert"]}
{"id": "C114", "title": "An alias of a kernel module leads to a module that has it", "statement": "After the list of aliases was made of a tree of modules, asking for an alias that some module has gives the kernel the image of a module that has it, the first in the order in which the tree was listed, whatever the compression, and also for aliases with spaces; asking for any other alias fails and loads nothing; and the list is complete, or making it fails.", "quantifier": "all trees of modules, file names, compressions, .modinfo sections, aliases, orders in which the tree is seen, and amounts of room on the file system", "why_tests_cant": "the writer and the reader are separate programs that agree only through a text format; trees, names and amounts of room have no bound", "anchors": ["test-distro/src/depmod.rs::write_aliases_from_modinfo", "test-distro/src/depmod.rs::main", "test-distro/src/modprobe.rs::resolve_alias", "test-distro/src/modprobe.rs::parse_alias_line", "test-distro/src/modprobe.rs::try_main", "test-distro/src/lib.rs::resolve_modules_dir"]}
{"id": "C115", "title": "A declared map that compiles is made as declared", "statement": "A map declared in a program with one of the map types that carry their sizes as constants, if the program compiles, is made by the kernel with the declared type, key and value sizes, number of entries and flags (ring buffers rounded up to pages, perf event arrays with one entry for each CPU); what is refused when compiling is what the kernel would refuse or what would not be aligned; and references to values that programs get from the map are aligned.", "quantifier": "all map types, all sizes and alignments of keys and values, numbers of entries, flags, all limits of kernels, page sizes and numbers of CPUs, and whether the program uses the map", "why_tests_cant": "a test compiles a few declarations on one kernel; constants have 64 bits, and the compiler, the loader and the kernel each apply rules of their own", "anchors": ["ebpf/aya-ebpf/src/btf_maps/mod.rs::btf_map_def", "ebpf/aya-ebpf/src/btf_maps/hash_map.rs::_CHECK", "ebpf/aya-ebpf/src/btf_maps/lpm_trie.rs::_CHECK", "ebpf/aya-ebpf/src/btf_maps/per_cpu_array.rs::_CHECK", "ebpf/aya-ebpf/src/btf_maps/array.rs::Array", "aya/src/bpf.rs::max_entries_override", "aya/src/bpf.rs::value_size_override", "aya/src/sys/bpf.rs::bpf_create_map"]}
{"id": "C116", "title": "The verdict of a run of tests in virtual machines is that of the tests", "statement": "Running the integration tests in virtual machines succeeds if and only if, in each machine, everything was mounted and each test binary, run with the arguments that the user gave, ended with exit code 0. A machine that stops before its verdict, says two verdicts or ends with an error is not a success, and a success of one machine does not hide a failure of another.", "quantifier": "all arguments, sets of binaries, behaviours of binaries given their arguments, what they and the kernel print, machines and their exit codes", "why_tests_cant": "a test of the tests runs a few binaries that print what test harnesses print; the verdict goes over a console shared with whatever the kernel and the binaries print, and the arguments over the command line of the kernel", "anchors": ["test-distro/src/init.rs::run", "test-distro/src/init.rs::main", "xtask/src/run.rs::run", "xtask/src/run.rs::terminate_if_kernel_hang"]}
{"id": "C117", "title": "Tests run on the newest kernel of a line that is complete", "statement": "Asked for a line of kernels such as 6.6, the command that runs tests in virtual machines uses a release of this line for which there is exactly one image and one package of modules for the architecture, and no newer release of the line has these; image and modules belong to each other; and if there is such a release, one is found.", "quantifier": "all lists of releases, names of files, lines, architectures, numbers, and pages that cannot be had", "why_tests_cant": "a test uses a saved page; releases come and go on the site, some for a time without packages, and patch levels are compared as numbers of any length", "anchors": ["xtask/src/ubuntu_mainline.rs::ubuntu_mainline_kernel_urls", "xtask/src/ubuntu_mainline.rs::UBUNTU_MAINLINE_IMAGE_PACKAGE_PREFIX"]}
{"id": "C118", "title": "Files kept from downloads are whole and current", "statement": "A file that a download keeps is never a part of one or a mixture: it is exactly what the server had at the time of some run. A run that succeeds with a network that works leaves the file that the server has now, whatever crashes and failures came before; what has not changed is not downloaded again; and without the network nothing changes and the kept file can be used.", "quantifier": "all histories of runs, versions on the server with or without tags, failures of the network, and crashes between any two changes to the disk, also in the middle of writing the tag", "why_tests_cant": "a test downloads twice from a server of its own; the file and its tag are two files that are changed one after the other, so a crash leaves combinations that no run without one makes", "anchors": ["xtask/src/http.rs::download_to_path", "xtask/src/http.rs::download_to_dir"]}
{"id": "C119", "title": "Test machines get exactly the files that were put into their archive", "statement": "The file system that a kernel makes from the archive written for a test machine has exactly the entries that were asked for, in their order: the same names, types and modes, times, and every byte of the contents, each with a number of its own. Directories come before what is in them, all modules of the host are there at the same paths, and every test program that was built is found under its name. The archive is written without an error exactly if no file changes its size while it is copied, sizes and lengths of names have 32 bits, and there are fewer than 2^32 entries.", "quantifier": "all lists of entries, of any length, all names, modes and times, and all contents of files, also those that change while they are copied", "why_tests_cant": "a test boots with a few files; alignment depends on the lengths of every name and file before, and one byte too many or too few makes all later entries unreadable", "anchors": ["xtask/src/run.rs::CpioArchiveBuilder", "xtask/src/run.rs::CpioArchiveBuilder::append", "xtask/src/run.rs::CpioArchiveBuilder::append_trailer", "xtask/src/run.rs::run"]}
