{"id": "C01", "title": "Bit-field write then read returns the value and leaves the rest of the register alone", "statement": "For every register value, every bit range (msb, lsb) that MSR.set_bits() accepts and every non-negative value it accepts for that range, MSR.get_bits() of the result over the same range is exactly that value, and every bit outside the range is the same as before.", "quantifier": "all register values, all accepted bit ranges, all accepted values", "why_tests_cant": "The input space is 2^64 register values times thousands of ranges times values; tests only sample it.", "anchors": ["pepclibs/msr/MSR.py: MSR.get_bits, MSR.set_bits, MSR._normalize_bits"]}
{"id": "C02", "title": "A value that does not fit into a bit range is refused, so set_bits() can never damage neighbouring bits", "statement": "MSR.set_bits() either raises Error or returns a register value that differs from the old one only inside the requested range and still fits into 64 bits.", "quantifier": "all register values, all bit ranges (including ranges reaching above bit 63) and all integer values including negative ones", "why_tests_cant": "It is a claim about every rejected and every accepted input, including negative numbers nobody thinks of testing.", "anchors": ["pepclibs/msr/MSR.py: MSR.set_bits, MSR._normalize_bits"]}
{"id": "C03", "title": "Writes to disjoint bit ranges of one register commute and do not disturb each other", "statement": "Setting two disjoint bit ranges in either order yields the same register value, and reading one range is unaffected by setting the other.", "quantifier": "all register values, all pairs of disjoint accepted ranges, all accepted values", "why_tests_cant": "Interactions between every pair of fields cannot be enumerated.", "anchors": ["pepclibs/msr/MSR.py: MSR.get_bits, MSR.set_bits", "pepclibs/msr/HWPRequest.py: FEATURES"]}
{"id": "C04", "title": "Cached MSR reads always return what the hardware holds", "statement": "After any sequence of read() and write() calls on an MSR object (outside transactions), where every register is always used with its own I/O scope and the hardware keeps one value per scope, every read() yields, for every requested CPU exactly once and in order, the value the hardware holds for that CPU.", "quantifier": "all finite histories of reads and writes over all registers, CPU lists, values and CPU topologies", "why_tests_cant": "Cache coherence depends on the history and the topology; both are unbounded.", "anchors": ["pepclibs/msr/MSR.py: MSR.read, MSR._read, MSR.write", "pepclibs/_PerCPUCache.py: PerCPUCache.get, add, remove"]}
{"id": "C05", "title": "MSR write() reaches every requested CPU and nothing else", "statement": "A successful write() outside of a transaction leaves every requested CPU (and every CPU sharing the register with it) with the new value and does not change any other CPU or any other register, although the hardware is accessed only once per I/O scope.", "quantifier": "all topologies, all CPU lists, all prior cache contents and hardware states", "why_tests_cant": "The write-once-per-scope optimisation relies on the cache contents; the set of possible cache states is unbounded.", "anchors": ["pepclibs/msr/MSR.py: MSR.write", "pepclibs/_PerCPUCache.py: PerCPUCache.is_cached, add, remove"]}
{"id": "C06", "title": "An MSR transaction ends in the same hardware state as the same writes done immediately", "statement": "Running start_transaction(), any list of writes and reads, commit_transaction() leaves every register on every CPU with the value it would have if every write had gone to the hardware at once, and every read inside of the transaction yields the value that was last written.", "quantifier": "all sequences of writes and reads inside of a transaction, all topologies", "why_tests_cant": "Merging and reordering of buffered writes depends on the sequence of calls, which is unbounded.", "anchors": ["pepclibs/msr/MSR.py: start_transaction, _add_for_transation, _transaction_write, flush_transaction, commit_transaction, write, read"]}
{"id": "C07", "title": "No hardware write happens inside of an MSR transaction before a flush", "statement": "Between start_transaction() and the next flush or commit, no call of read(), write() or write_bits() modifies any hardware register, and a commit writes every (CPU, register) pair at most once.", "quantifier": "all call sequences inside of a transaction", "why_tests_cant": "A property of every possible call sequence.", "anchors": ["pepclibs/msr/MSR.py: write, write_bits, flush_transaction"]}
{"id": "C08", "title": "write_bits() is a read-modify-write that changes only the requested bits", "statement": "After write_bits(regaddr, bits, val, cpus) every requested CPU has val in the bits and all other bits of that register keep the value they had before the call; registers with different addresses and CPUs outside the I/O scopes of the requested CPUs keep their values.", "quantifier": "all topologies, hardware states, cache states reachable by earlier calls, CPU lists, ranges and values", "why_tests_cant": "Correctness depends on the coherence of the cached value the new register value is computed from.", "anchors": ["pepclibs/msr/MSR.py: write_bits, read, write, set_bits"]}
{"id": "C09", "title": "Features living in one MSR but having different I/O scopes are reported correctly", "statement": "If two features share a register, and one is accessed per core while the other one is accessed per module, then reading either feature returns the value the hardware holds for that CPU, whatever was read or written before.", "quantifier": "all histories of feature reads and writes with mixed I/O scopes", "why_tests_cant": "Needs a particular history over two features and two scopes; an unbounded family.", "anchors": ["pepclibs/msr/MiscFeatureControl.py: FEATURES", "pepclibs/msr/MSR.py: read, write, write_bits", "pepclibs/_PerCPUCache.py"]}
{"id": "C10", "title": "The scope-aware per-CPU cache is coherent per scope", "statement": "After add(name, cpu, val, scope) a lookup of the same name on any CPU of the same scope returns val, a lookup for other CPUs or other names is not affected; after remove(name, cpu, scope) no CPU of that scope has an entry and all other entries survive; with caching disabled nothing is ever found.", "quantifier": "all topologies, cache contents, names, CPUs, values and scope names", "why_tests_cant": "Must hold for any topology and any cache contents.", "anchors": ["pepclibs/_PerCPUCache.py: PerCPUCache.add, remove, get, is_cached"]}
{"id": "C11", "title": "sysfs reads always return the last value written through the same object", "statement": "For any history of read(), write(), write_verify() and transactions on a SysfsIO object over ordinary sysfs files, read(path) returns the stripped value most recently written to that path through the object, or the file contents if nothing was written, whether the cache is used or not.", "quantifier": "all finite histories, paths and values", "why_tests_cant": "A refinement claim over unbounded histories.", "anchors": ["pepclibs/_SysfsIO.py: read, write, write_verify, start_transaction, flush_transaction, commit_transaction, cache_add, cache_remove"]}
{"id": "C12", "title": "A committed sysfs transaction leaves files as if all writes were immediate, with one write per file", "statement": "start_transaction(), any sequence of writes and reads, commit_transaction() leaves every file with the same contents as immediate writes, no file is touched before the flush, and every path is written exactly once, in the order of first use.", "quantifier": "all sequences of writes and reads inside of the transaction", "why_tests_cant": "Unbounded interleavings of paths.", "anchors": ["pepclibs/_SysfsIO.py: _add_for_transaction, flush_transaction, commit_transaction, write"]}
{"id": "C13", "title": "A failing sysfs write never leaves a stale value in the cache", "statement": "If a write (or the verification after it) fails outside of a transaction, a later read of that path goes to the file and returns its actual contents; the rejected value is never reported.", "quantifier": "all cache contents, all failure points, all histories after the failure", "why_tests_cant": "Quantifies over failure points and later histories.", "anchors": ["pepclibs/_SysfsIO.py: write, write_verify, _verify, read"]}
{"id": "C14", "title": "Verified sysfs writes report success only if the value was read back", "statement": "write_verify() with any number of retries returns normally only if one of at most retries+1 read-backs returned exactly the requested value, and raises ErrorVerifyFailed with the last value read otherwise.", "quantifier": "all retry counts and all sequences of values the kernel may return on read-back", "why_tests_cant": "The kernel may return any sequence of values.", "anchors": ["pepclibs/_SysfsIO.py: _verify, write_verify, write_verify_int"]}
{"id": "C15", "title": "Scope siblings form a partition of the CPUs", "statement": "For every scope name, a CPU is among its own siblings, being siblings is symmetric and transitive, all CPUs are siblings in the global scope, and two CPUs are siblings exactly if they have the same scope identity (core within package, module, die within package, node, package).", "quantifier": "all topology tables and scopes", "why_tests_cant": "All MSR and property I/O relies on it for every machine topology.", "anchors": ["pepclibs/CPUInfo.py: get_cpu_siblings, cores_to_cpus, modules_to_cpus, dies_to_cpus, nodes_to_cpus, packages_to_cpus, get_cpu_levels"]}
{"id": "C16", "title": "Dividing CPUs by packages is exact", "statement": "cpus_div_packages(cpus) returns exactly the packages all of whose CPUs are in cpus, and the remaining CPUs are exactly the CPUs of cpus which are not in any returned package; no CPU is lost and none is invented.", "quantifier": "all topologies and all CPU collections", "why_tests_cant": "All topologies, all subsets of CPUs.", "anchors": ["pepclibs/CPUInfo.py: cpus_div_packages, package_to_cpus, normalize_cpus, normalize_packages"]}
{"id": "C17", "title": "Dividing CPUs by dies is exact", "statement": "cpus_div_dies(cpus) returns for every package exactly the dies all of whose CPUs are in cpus, and the remaining CPUs are exactly the CPUs of cpus which are not in any returned die.", "quantifier": "all topologies with package-relative die numbers, including dies without CPUs, and all CPU collections", "why_tests_cant": "All topologies, all subsets of CPUs.", "anchors": ["pepclibs/CPUInfo.py: cpus_div_dies, dies_to_cpus, package_to_dies"]}
{"id": "C18", "title": "Dividing CPUs by cores is exact", "statement": "cpus_div_cores(cpus) returns for every package exactly the cores all of whose CPUs are in cpus, and the remaining CPUs are exactly the CPUs of cpus which are not in any returned core.", "quantifier": "all topologies with package-relative core numbers and all CPU collections", "why_tests_cant": "All topologies, all subsets of CPUs.", "anchors": ["pepclibs/CPUInfo.py: cpus_div_cores, cores_to_cpus"]}
{"id": "C19", "title": "Selecting core siblings picks exactly the CPUs with the given index in their core", "statement": "select_core_siblings(cpus, indexes) returns exactly those CPUs of the input whose position among the CPUs of their core (in increasing CPU number order) is in indexes.", "quantifier": "all topologies, CPU collections and index lists", "why_tests_cant": "All topologies, subsets and index lists.", "anchors": ["pepclibs/CPUInfo.py: select_core_siblings, _get_topology"]}
{"id": "C20", "title": "Selecting module siblings picks exactly the CPUs with the given index in their module", "statement": "select_module_siblings(cpus, indexes) returns exactly those CPUs of the input whose position among the CPUs of their module is in indexes.", "quantifier": "all topologies, CPU collections and index lists", "why_tests_cant": "All topologies, subsets and index lists.", "anchors": ["pepclibs/CPUInfo.py: select_module_siblings, _get_topology", "pepclibs/_CPUInfoBase.py: _add_modules"]}
{"id": "C21", "title": "CPU lists are normalised without losing, inventing or duplicating CPUs", "statement": "normalize_cpus() returns the requested CPUs without duplicates in first-occurrence order, all of them known, or raises if any requested CPU is unknown (offline CPUs are known only on request).", "quantifier": "all topologies and CPU lists", "why_tests_cant": "All lists with repetitions and unknown numbers.", "anchors": ["pepclibs/CPUInfo.py: normalize_cpus", "pepclibs/helperlibs/Trivial.py: list_dedup"]}
{"id": "C22", "title": "Topology number queries return each existing number once", "statement": "get_cpus(), get_packages(), get_nodes() and the package-indexed queries return every number that exists on an online row of the topology exactly once (rows without CPU are skipped where they have no number), and a bad parent number is rejected.", "quantifier": "all topology tables and all argument lists", "why_tests_cant": "All topologies.", "anchors": ["pepclibs/CPUInfo.py: _get_level_nums, get_cpus, get_packages, get_cores, get_dies, get_modules, get_nodes"]}
{"id": "C23", "title": "Printing CPU numbers as ranges and parsing them back is lossless", "statement": "For every list of non-negative integers, parsing the string produced by rangify() with split_csv_line_int() yields the sorted list.", "quantifier": "all lists of natural numbers", "why_tests_cant": "Infinite input space, with run boundaries anywhere.", "anchors": ["pepclibs/helperlibs/Trivial.py: rangify, split_csv_line_int, split_csv_line, str_to_int"]}
{"id": "C24", "title": "De-duplication keeps the first occurrence order and exactly the same elements", "statement": "list_dedup() returns a list without duplicates containing exactly the elements of the input, in the order of their first occurrence, and is idempotent.", "quantifier": "all lists", "why_tests_cant": "Infinite input space.", "anchors": ["pepclibs/helperlibs/Trivial.py: list_dedup"]}
{"id": "C25", "title": "Integer lists requested without duplicates have none", "statement": "split_csv_line_int(..., dedup=True) and parse_int_list(..., dedup=True) never return the same number twice.", "quantifier": "all input strings", "why_tests_cant": "Overlaps of ranges with single numbers or different spellings of a number are unbounded.", "anchors": ["pepclibs/helperlibs/Trivial.py: split_csv_line_int, parse_int_list, split_csv_line"]}
{"id": "C26", "title": "A property is read with a single mechanism, once per CPU and in order", "statement": "get_prop_cpus() either fails or yields exactly one result per requested CPU in the requested order, all obtained with the same mechanism, and that mechanism is the first allowed one that does not report 'not supported'; if none supports it, every CPU gets None.", "quantifier": "all mechanism lists, CPU lists and all behaviours of the mechanisms (including failures after some results)", "why_tests_cant": "Depends on the failure pattern of several mechanisms on arbitrary CPU lists.", "anchors": ["pepclibs/_PropsClassBase.py: _get_prop_pvinfo_cpus, get_prop_cpus, _normalize_mnames"]}
{"id": "C27", "title": "Setting a property reports the mechanism that really wrote it", "statement": "set_prop_cpus() returns the name of the first allowed mechanism that accepted the request; no later mechanism is tried after a mechanism succeeded or failed for a reason other than 'not supported'/'try another'.", "quantifier": "all mechanism lists and behaviours", "why_tests_cant": "All failure patterns.", "anchors": ["pepclibs/_PropsClassBase.py: _set_prop_cpus_mnames, set_prop_cpus, _normalize_mnames"]}
{"id": "C28", "title": "Setting a property on dies or packages reaches every I/O scope unit of the target", "statement": "When a property is set for a list of dies or packages, the reduced CPU list used for I/O contains at least one CPU from every I/O scope unit that intersects the target, only CPUs of the target, and no two CPUs of the same unit.", "quantifier": "all topologies, I/O scopes and target CPU lists", "why_tests_cant": "All topologies and subsets.", "anchors": ["pepclibs/_PropsClassBase.py: _reduce_cpus_ioscope, set_prop_dies, set_prop_packages"]}
{"id": "C29", "title": "A per-package, per-die or per-core property cannot be changed for a part of its scope", "statement": "set_prop_cpus() for a property with a scope wider than CPU is refused unless the CPU list consists of entire scope units (unions of siblings); a global property needs all CPUs.", "quantifier": "all topologies, scopes and CPU lists", "why_tests_cant": "All topologies and subsets.", "anchors": ["pepclibs/_PropsClassBase.py: _validate_cpus_vs_scope, set_prop_cpus"]}
{"id": "C30", "title": "Minimum and maximum CPU frequency limits never cross", "statement": "Starting from a state where min <= max and both are within the hardware limits on every CPU, any sequence of successful or failing set operations of the min. and max. frequency leaves min <= max and both within the limits on every CPU.", "quantifier": "all finite sequences of set requests over all CPU subsets and frequencies", "why_tests_cant": "An invariant over unbounded histories.", "anchors": ["pepclibs/PStates.py: _set_cpu_freq, _get_numeric_cpu_freq"]}
{"id": "C31", "title": "A refused frequency request changes nothing", "statement": "If a min/max frequency request is refused because of the range or order on any requested CPU, the frequency limits of all CPUs stay as they were; a successful request changes exactly the requested CPUs.", "quantifier": "all CPU lists, states and frequencies", "why_tests_cant": "All failure positions within the CPU list.", "anchors": ["pepclibs/PStates.py: _set_cpu_freq"]}
{"id": "C32", "title": "Requesting a new min. and max. frequency together succeeds whatever the current limits are", "statement": "If both the min. and max. frequency are requested in one command, new min <= new max and both are within the hardware limits, then the command succeeds and sets both, for every current state and for both orders of the options.", "quantifier": "all current limits and all new limit pairs, both orders", "why_tests_cant": "Depends on the relative order of four numbers, for every CPU.", "anchors": ["pepctool/_PepcSetter.py: PStatesSetter._set_prop_sname, set_props", "pepclibs/PStates.py: _set_cpu_freq"]}
{"id": "C33", "title": "Restoring saved frequency limits gives back the saved limits", "statement": "Restoring a saved (min, max) pair through the restore command ends with exactly the saved pair from any current state, in either order of the two entries in the file.", "quantifier": "all current states and all saved valid pairs", "why_tests_cant": "All relative positions of current and saved limits.", "anchors": ["pepctool/_PepcSetter.py: PStatesSetter._restore_prop, _restore_props"]}
{"id": "C34", "title": "CPU frequency to performance level conversion round-trips", "statement": "Setting a CPU frequency that is a multiple of the bus clock through the HWP MSR and reading it back returns exactly that frequency, both on ordinary CPUs and on hybrid P-cores with a scaling factor not larger than the bus clock; reading is monotone in the performance level.", "quantifier": "all bus clocks, scaling factors and frequencies", "why_tests_cant": "All triples of integers, with two different integer roundings.", "anchors": ["pepclibs/_CPUFreq.py: CPUFreqMSR._perf_to_freq, _set_freq_msr, _get_freq_msr"]}
{"id": "C35", "title": "The list of available frequencies is exactly the bus clock grid between the limits", "statement": "The computed list of available CPU frequencies starts at the min. frequency, increases in steps of the bus clock, contains every grid point not above the max. frequency and nothing else.", "quantifier": "all min, max and bus clock values", "why_tests_cant": "Unbounded lists.", "anchors": ["pepclibs/PStates.py: _get_frequencies_intel"]}
{"id": "C36", "title": "The 'middle' uncore frequency stays within the limits", "statement": "The numeric value used for the special uncore frequency 'mdl' is a multiple of the bus clock lying between the min. and max. limits whenever both limits are multiples of the bus clock.", "quantifier": "all limits and bus clocks", "why_tests_cant": "All triples of integers and a rounding mode.", "anchors": ["pepclibs/PStates.py: _get_numeric_uncore_freq"]}
{"id": "C37", "title": "Feature values written by name read back as the same name", "statement": "For every named-value feature with an injective code table, writing any accepted spelling (name, alias, any letter case, True/False) and reading the feature back yields the canonical name for that spelling, and unknown names are refused without touching the hardware.", "quantifier": "all feature tables, all spellings, all register contents", "why_tests_cant": "All tables and spellings times 2^64 register contents.", "anchors": ["pepclibs/msr/_FeaturedMSR.py: _normalize_feature_value, read_feature, write_feature, _init_features_dict_defaults", "pepclibs/msr/MSR.py: write_bits"]}
{"id": "C38", "title": "Reading the package C-state limit never fails and never over-reports", "statement": "Decoding the package C-state limit returns a name for every code; an exactly known code gives its own name; an unknown code gives the name of the closest known lower code that is not 'unlimited', or the decimal code if there is none.", "quantifier": "all code tables and register values", "why_tests_cant": "All platforms and register contents.", "anchors": ["pepclibs/msr/PCStateConfigCtl.py: _get_pkg_cstate_limit, _PKG_CST_LIMITS"]}
{"id": "C39", "title": "A locked package C-state limit register is never written", "statement": "Setting the package C-state limit fails without any register write if the lock bit is set on any of the requested CPUs; otherwise exactly the limit bits change on the requested CPUs.", "quantifier": "all topologies, register contents and CPU lists", "why_tests_cant": "All positions of a locked CPU in the list.", "anchors": ["pepclibs/msr/PCStateConfigCtl.py: _set_pkg_cstate_limit"]}
{"id": "C40", "title": "RAPL power limits round-trip to within one power unit and stay ordered", "statement": "Writing a package power limit in Watts that fits into the register field and reading it back returns a value not above the written one and less than one power unit below it; a sequence of accepted PPL1/PPL2 changes keeps PPL1 <= PPL2 and both within the documented TDP-relative bounds.", "quantifier": "all power units, limits, TDPs and request sequences", "why_tests_cant": "All units and values; an invariant over histories.", "anchors": ["pepclibs/msr/PackagePowerLimit.py: _set_limit, _get_feature", "pepclibs/Power.py: _validate_ppl"]}
{"id": "C41", "title": "Energy-performance values are validated before anything is written", "statement": "Setting EPP or EPB to a value accepted by the documented range or policy list writes exactly the requested CPUs; an unacceptable value is refused with no write at all.", "quantifier": "all values, CPU lists and mechanism orders", "why_tests_cant": "All strings and mechanism behaviours.", "anchors": ["pepclibs/_EPBase.py: _set_epb_or_epb, set_vals", "pepclibs/EPP.py: _validate_value", "pepclibs/EPB.py: _validate_value"]}
{"id": "C42", "title": "Energy-performance reads yield each CPU once", "statement": "Reading EPP or EPB yields exactly one value per requested CPU, in order.", "quantifier": "all mechanism behaviours and CPU lists", "why_tests_cant": "All failure patterns.", "anchors": ["pepclibs/_EPBase.py: _get_epp_or_epb"]}
{"id": "C43", "title": "Per-CPU idle state tables are attributed to the right CPU", "statement": "The C-states information gathered from sysfs gives every CPU exactly its own idle states with their own attributes.", "quantifier": "all machines: any number of CPUs, idle states and attributes per state", "why_tests_cant": "Unbounded record streams.", "anchors": ["pepclibs/CPUIdle.py: _read_cstates_info, _get_cstates_info"]}
{"id": "C44", "title": "Enabling or disabling C-states touches only the named states of the requested CPUs", "statement": "enable_cstates()/disable_cstates() change exactly the 'disable' flag of the named C-states on the requested CPUs, all others keep their state, and the flags read back as requested.", "quantifier": "all machines, CPU lists and C-state lists", "why_tests_cant": "All subsets of CPUs and states.", "anchors": ["pepclibs/CPUIdle.py: _toggle_cstates, _toggle_cstate, _normalize_csnames, enable_cstates, disable_cstates"]}
{"id": "C45", "title": "CPU hotplug requests are exact and idempotent", "statement": "After online(cpus) or offline(cpus) returns successfully every requested CPU that supports hotplug is in the requested state, no other CPU changed its state, and repeating the request changes nothing; a CPU without hotplug support is refused or skipped but never changed.", "quantifier": "all sets of present, online and hotpluggable CPUs and all request sequences", "why_tests_cant": "All states and request sequences.", "anchors": ["pepclibs/CPUOnline.py: _toggle, online, offline, is_online, _verify_path, _validate_hotplugged_cpus"]}
{"id": "C46", "title": "Kernel version comparison is a consistent order", "statement": "kver_lt() is irreflexive, transitive and total on distinct parsed versions, kver_ge() is its negation, and a release candidate precedes its release.", "quantifier": "all version strings the parser accepts", "why_tests_cant": "Infinite input space; an algebraic law over triples.", "anchors": ["pepclibs/helperlibs/KernelVersion.py: split_kver, kver_lt, kver_ge"]}
{"id": "C47", "title": "Closest-match suggestions are really closest", "statement": "closest_match() returns a candidate whose edit distance to the given string is within the limit and minimal among all candidates, and returns nothing only if no candidate is within the limit; the distance is 0 exactly for equal strings and symmetric.", "quantifier": "all strings, candidate lists and limits", "why_tests_cant": "Infinite input space.", "anchors": ["pepclibs/helperlibs/DamerauLevenshtein.py: closest_match"]}
{"id": "C48", "title": "TPMI bit-field writes change only the field", "statement": "Writing a value to a TPMI register bit field and reading the field back returns the value and all bits outside the field are unchanged.", "quantifier": "all register values, field definitions and values accepted by the write", "why_tests_cant": "2^64 register contents times field layouts times values.", "anchors": ["pepclibs/Tpmi.py: _set_bitfield, _get_bitfield, _write_register, write_register"]}
{"id": "C49", "title": "64-bit TPMI registers are split and joined without loss", "statement": "Writing a 64-bit TPMI register and reading it back returns the written value, and no other offset or instance changes.", "quantifier": "all memory contents, offsets and values", "why_tests_cant": "All memory states.", "anchors": ["pepclibs/Tpmi.py: _write_register, _read_register"]}
{"id": "C50", "title": "The TPMI memory dump parser locates every register", "statement": "For every memory dump in the kernel debugfs format, reading at the position computed by the parser for (instance, offset) yields exactly the word the dump shows at that instance and offset.", "quantifier": "all dumps: any number of instances, lines, words and any header lengths", "why_tests_cant": "Positions are accumulated over an unbounded file.", "anchors": ["pepclibs/Tpmi.py: _build_mdmap, _validate_instance_offset, _read"]}
{"id": "C51", "title": "Iterating over a TPMI feature visits every instance of every device exactly once", "statement": "iter_feature(fname) without restrictions yields every (device, package, instance) triple of the feature exactly once.", "quantifier": "all sets of devices with arbitrary instance sets", "why_tests_cant": "All combinations of devices and instances.", "anchors": ["pepclibs/Tpmi.py: iter_feature"]}
{"id": "C52", "title": "Target selection options cover exactly the requested CPUs", "statement": "The CPUs an operation is applied to are exactly the union of the CPUs selected by the --cpus, --cores, --modules, --dies and --packages options, filtered by the sibling index options, each CPU once.", "quantifier": "all topologies and option combinations", "why_tests_cant": "All topologies and combinations of options.", "anchors": ["pepctool/_OpTarget.py: OpTarget.get_cpus, _get_cpus, __init__"]}
{"id": "C53", "title": "Strict package and die targeting never hides CPUs, whatever was asked before", "statement": "get_packages(strict=True) and get_dies(strict=True) return only if every selected CPU is covered by the returned packages or dies; the answer does not depend on earlier calls.", "quantifier": "all topologies, option combinations and histories of calls", "why_tests_cant": "A property of histories.", "anchors": ["pepctool/_OpTarget.py: OpTarget.get_packages, get_dies"]}
{"id": "C54", "title": "PM QoS latency limits round-trip", "statement": "Setting the per-CPU or global latency limit and reading it back returns the requested value rounded to the nearest microsecond.", "quantifier": "all latency values", "why_tests_cant": "Infinite input space with rounding.", "anchors": ["pepclibs/_LinuxPMQoS.py: get_latency_limit, set_latency_limit, get_global_latency_limit"]}
{"id": "C55", "title": "The active ASPM policy can always be recognised and only listed policies can be set", "statement": "Given the policy file contents with one bracketed entry, get_policy() returns the bracketed name and get_policies() all names in order without brackets; set_policy() refuses names which are not listed, and after a successful set the file names the requested policy as active.", "quantifier": "all policy lists", "why_tests_cant": "All lists of names.", "anchors": ["pepclibs/ASPM.py: get_policy, get_policies, set_policy"]}
{"id": "C56", "title": "Legacy uncore sysfs directory names identify exactly one die", "statement": "Formatting (package, die) into the directory name and parsing it back returns the same numbers, and different (package, die) pairs have different names.", "quantifier": "all package and die numbers", "why_tests_cant": "Infinite input space.", "anchors": ["pepclibs/_UncoreFreq.py: _get_sysfs_path_legacy, _build_dies_info"]}
{"id": "C57", "title": "Turbo on/off written is turbo on/off read, for every driver", "statement": "set_turbo() followed by get_turbo() returns the written value for every supported driver although one of the drivers stores the inverted value; unsupported drivers refuse the operation without writing.", "quantifier": "all drivers, modes and file contents", "why_tests_cant": "All driver/mode/state combinations and histories.", "anchors": ["pepclibs/_CPUFreq.py: get_turbo, set_turbo, get_intel_pstate_mode, set_intel_pstate_mode"]}
{"id": "C59", "title": "Package-controlled HWP fields are switched to per-CPU control before use", "statement": "After setting min/max performance or EPP through the MSR on a CPU, that field is not package-controlled on that CPU, and CPUs that were not requested keep their register contents.", "quantifier": "all register contents and CPU lists", "why_tests_cant": "All combinations of the control bits over arbitrary CPU sets.", "anchors": ["pepclibs/msr/HWPRequest.py: is_cpu_feature_pkg_controlled, disable_cpu_feature_pkg_control", "pepclibs/_CPUFreq.py: _set_freq_msr"]}
{"id": "C60", "title": "A CPU frequency governor is only set where it is available", "statement": "After set_governor() succeeds every requested CPU has the requested governor and all other CPUs keep theirs; a governor that a CPU does not list as available is never written to that CPU and the request fails.", "quantifier": "all governor names, CPU lists and sysfs contents", "why_tests_cant": "the set of available governors and the CPU lists are unbounded, tests use a few emulated contents", "anchors": ["pepclibs/_CPUFreq.py: set_governor, get_governor, get_available_governors"]}
{"id": "C61", "title": "EPP and EPB reads return what the kernel reports", "statement": "After any sequence of set and get requests for EPP or EPB, reading a CPU's value via sysfs returns the value its sysfs file holds.", "quantifier": "all request sequences, values, CPU lists, mechanisms and kernel value translations", "why_tests_cant": "The cache, the alias table and the kernel's value translation interact over unbounded histories.", "anchors": ["pepclibs/EPP.py: _read_from_sysfs, _write_to_sysfs", "pepclibs/EPB.py: _read_from_sysfs, _write_to_sysfs", "pepclibs/_PropsCache.py: add, remove, get"]}
{"id": "C62", "title": "Package and die level targets never widen the selection", "statement": "The packages (dies) that an operation is applied to at the package (die) level contain no CPU that the user's options did not select, so a package-scope write made for a selection never affects a CPU outside of it.", "quantifier": "all topologies, option combinations and histories of calls", "why_tests_cant": "All topologies and combinations of options; packages play two roles (selection and qualifier).", "anchors": ["pepctool/_OpTarget.py: OpTarget.get_packages, get_dies"]}
{"id": "C63", "title": "Toggling L1 ASPM of a PCI device takes effect on that device only", "statement": "After toggle_l1_state(addr, enable) succeeds, is_l1_enabled(addr) returns 'enable', whatever the state was; no other device is affected and a failing call changes nothing. A device without the L1 file is reported with ErrorNotSupported and a missing device with a different error, by both functions.", "quantifier": "all devices, addresses, prior states, kernel answers", "why_tests_cant": "Arbitrary sets of devices and failure points; tests use one emulated device.", "anchors": ["pepclibs/ASPM.py: is_l1_enabled, toggle_l1_state, _l1_file_not_found"]}
{"id": "C65", "title": "Setting an uncore frequency changes exactly the given dies, whatever was configured via the legacy interface", "statement": "set_min_freq_dies()/set_max_freq_dies() with a frequency within the limits succeed regardless of bounds previously configured via the legacy sysfs interface (unless a write fails for other reasons); on success the given dies have the frequency (in whole kHz), all other dies and the other bound are unchanged, also after any sequence of calls. The functions for CPUs do the same for the dies of the CPUs.", "quantifier": "all kernel states, sets of dies, frequencies, sequences of calls", "why_tests_cant": "The unlocking quirk temporarily overwrites all dies of all packages; the claim covers all prior legacy settings and histories.", "anchors": ["pepclibs/_UncoreFreq.py: set_min_freq_dies, set_max_freq_dies, _unlock_new_sysfs_api, _set_freq_dies, _set_freq_cpus"]}
{"id": "C66", "title": "Restrictions of a TPMI feature iteration select exactly the matching devices and are validated", "statement": "iter_feature(fname, addrs, packages, instances) yields exactly the (device, package, instance) triples of the given devices that are in the given packages, with the given instances; unknown devices, unknown packages, packages a given device is not in, and instances a device does not have are refused with an error.", "quantifier": "all feature maps, all combinations of restrictions, all prior executions", "why_tests_cant": "Combinations of three restrictions over arbitrary device sets.", "anchors": ["pepclibs/Tpmi.py: iter_feature, _validate_addrs, _validate_addr, _validate_instance"]}
{"id": "C58", "title": "Human-readable durations parse back to the same number of seconds", "statement": "For every whole number of seconds from one second to less than one day, parsing the text produced for it by the duration formatter yields the same number; if the formatter is told to leave out the seconds and the duration is at least one minute, parsing yields the number rounded down to whole minutes. The text of a duration of one day or longer is refused by the parser with an error, it is never taken for a different duration.", "quantifier": "all such numbers and both formats", "why_tests_cant": "The composition of two string functions over tens of thousands of values and arbitrary larger values.", "anchors": ["pepclibs/helperlibs/Human.py: duration, parse_human, _tokenize"]}
{"id": "C67", "title": "Durations given in several units add up", "statement": "A time given as amounts in days, hours, minutes and seconds (each at most once, in this order, with any blanks around the numbers, the last amount possibly with a fraction) is parsed as the sum of the amounts times the lengths of the units, converted to the unit asked for: exactly if the result is a whole number not above 2^45, with a relative error of at most 2^-47 otherwise.", "quantifier": "all lists of amounts, all decimal fractions of up to 20 digits, all target units, any rounding of floating point operations with a relative error of at most 2^-53", "why_tests_cant": "Infinitely many texts; the result depends on floating point rounding.", "anchors": ["pepclibs/helperlibs/Human.py: parse_human, _tokenize"]}
{"id": "C68", "title": "Values with SI prefixes mean what the SI says", "statement": "A frequency, time or power given as a decimal number with an SI prefix from nano to exa (or without one) is parsed as the number times the power of ten of the prefix, converted to the unit asked for: exactly if the result is a whole number not above 2^45 and an integer is asked for, with a relative error of at most 2^-47 otherwise. A plain number is in the unit the caller gives.", "quantifier": "all decimal numbers with up to 20 digits after the point, all prefixes of the text, of the default unit and of the target unit, any blanks", "why_tests_cant": "Infinitely many texts; the result depends on floating point rounding.", "anchors": ["pepclibs/helperlibs/Human.py: parse_human, _tokenize, separate_si_prefix"]}
{"id": "C69", "title": "Values printed with SI prefixes read back as the same value up to the printed precision", "statement": "For every value of at least 10^-9, in hertz, seconds or watts, and every number of decimal places up to 8, parsing the text printed for the value yields the value with a relative error of at most 10^-(decimal places); zero is printed as zero without a prefix and reads back as zero.", "quantifier": "all rational values up to 2^100, all numbers of decimal places, all blank separators, with and without stripping of trailing zeroes", "why_tests_cant": "A continuum of values; rounding while scaling and while printing may cross a power of 1000.", "anchors": ["pepclibs/helperlibs/Human.py: num2si, parse_human"]}
{"id": "C70", "title": "Caching MSR accesses is not visible to the callers", "statement": "Any sequence of read(), read_bits(), write() and write_bits() calls on an MSR object outside of transactions returns the same values and fails with the same errors, and leaves the same values in all the registers, as if registers were accessed directly, CPU by CPU, without a cache, without grouping CPUs by value and without skipping CPUs sharing a register.", "quantifier": "all topologies, all registers with a scope other than global, all sequences of calls, including failing ones, caching enabled or disabled", "why_tests_cant": "All interleavings of calls over all topologies; the cache state depends on the whole history.", "anchors": ["pepclibs/msr/MSR.py: read, read_bits, write, write_bits, _verify", "pepclibs/_PerCPUCache.py"]}
{"id": "C71", "title": "Sysfs access through the cache is the same as accessing plain files", "statement": "Any sequence of read(), read_int(), write(), write_int(), write_verify() and write_verify_int() calls on a SysfsIO object outside of transactions, after any previous history of calls (with transactions whose calls succeed), returns the same values and raises the same errors as accessing the files directly, and leaves the same contents in the files: the cache and the read-back are not visible. Values written have no surrounding white space, and a file holds what was successfully written to it.", "quantifier": "For all file systems of independent files with missing files and refused writes, all histories, and all sequences of calls", "why_tests_cant": "The cache is filled and invalidated along every path of calls and failures; tests follow a few of them with an emulated file system.", "anchors": ["pepclibs/_SysfsIO.py:47-89", "pepclibs/_SysfsIO.py:139-188", "pepclibs/_SysfsIO.py:234-371"]}
{"id": "C64", "title": "The uncore dies information lists exactly the dies of the driver, and reads go to the right die", "statement": "With one sysfs directory per uncore domain, get_dies_info() maps each package to the list of its dies in directory order and nothing else; get_{min,max}_freq[_limit]_dies() yield for each requested die that die's frequency or limit in Hz, and get_{min,max}_freq[_limit]_cpus() yield for each requested CPU that of the CPU's die.", "quantifier": "all sets of directories, any order and numbering; all frequencies; all CPUs", "why_tests_cant": "Arbitrary directory listings and numberings; tests have a couple of recorded systems.", "anchors": ["pepclibs/_UncoreFreq.py: get_dies_info, _build_dies_info, _add_die, _get_freq_dies, _get_freq_cpus"]}
{"id": "C72", "title": "The topology table is right after any history of requests and CPU hot-plugging", "statement": "Provided every die with CPUs always had an online CPU: whatever levels and orders were requested before, and however CPUs went online and offline (each time followed by cpus_hotplugged()), requesting any set of levels in any order succeeds and returns exactly one line per online CPU with the core, module, die, node and package numbers the kernel shows, one line per I/O die (reported by the uncore driver, without CPUs) if dies were ever requested, and no other lines, sorted by the order's keys. Module numbers fall back to core numbers if there is no cache information; offline CPUs in the sibling lists are ignored. A table with all levels meets the assumptions of the topology queries. Without the condition on the dies it is false.", "quantifier": "all machines, all files the kernel may show for them (numbers, ranges, other lines of /proc/cpuinfo), all histories of hot-plugging and requests", "why_tests_cant": "The table is extended one level at a time, and updated from the previous one; the number of histories is unbounded. Tests have a few recorded systems and do not change the set of online CPUs.", "anchors": ["pepclibs/_CPUInfoBase.py:77-330", "pepclibs/_CPUInfoBase.py:414-423"]}
{"id": "C73", "title": "All output lines of a process are returned, once and in order, with its exit code", "statement": "However the output of a local process or a process in an SSH session arrives (in any chunks, at any times, interleaved), and whatever sequence of wait() calls with whatever limits and time-outs collects it: the lines returned so far are a beginning of what the process wrote to the stream, wait() returns at most as many lines as requested, and once an exit code is returned, it is the one of the process and exactly all the lines it wrote were returned. run() returns all the lines and the exit code if the output arrives in time. False for a last line without a line end, which is lost.", "quantifier": "all outputs, all ways of splitting it into chunks, all timings, all histories of wait() calls", "why_tests_cant": "Chunk boundaries and timings depend on the scheduler and the network: tests see a few of them, lines split between chunks hardly ever.", "anchors": ["pepclibs/helperlibs/_ProcessManagerBase.py:55-219", "pepclibs/helperlibs/_ProcessManagerBase.py:232-335", "pepclibs/helperlibs/LocalProcessManager.py:72-116", "pepclibs/helperlibs/SSHProcessManager.py:244-289"]}
{"id": "C74", "title": "A command run in the interactive shell gets its own output and its own exit code", "statement": "When commands are run one after another in one interactive shell over SSH, which separates them by printing a random marker with the exit code: in whatever chunks and at whatever times the text arrives, run() and wait() return exactly the lines the command printed to the standard output stream, never a part of the marker, the PID line or output of an earlier command, and the command's exit code; once everything has arrived, the exit code is found. It requires that the output ends with a new line (or is empty); otherwise it is false.", "quantifier": "all outputs not containing the random marker, all ways of splitting it into chunks, including inside of the marker, all timings, all histories of wait() calls", "why_tests_cant": "Whether the marker is recognised depends on how the network splits the text; tests against a host cannot control it.", "anchors": ["pepclibs/helperlibs/SSHProcessManager.py:106-242", "pepclibs/helperlibs/SSHProcessManager.py:312-370", "pepclibs/helperlibs/SSHProcessManager.py:452-473"]}
{"id": "C75", "title": "MSR access works the same way on a remote host as on the local one", "statement": "Any sequence of read(), read_bits(), write(), write_bits(), start_transaction(), flush_transaction() and commit_transaction() calls on a new MSR object of a remote host, where values of several CPUs are read and written by one script whose output is parsed, has the outcome it would have on the local host with the same hardware: the same values, the same registers written with the same values in the same order, the same cache and buffer; if a call fails locally, the sequence fails remotely too, with the same registers written. Outside of transactions, on hardware that stores what is written, the results of all calls, including errors, and the registers are those of direct accesses CPU by CPU.", "quantifier": "all topologies, all register scopes, all hardware behaviour (shared registers, read-only bits, refused accesses), all sequences of calls", "why_tests_cant": "The remote variant plans which CPUs to read depending on the cache contents left by all the earlier calls, and tests run on emulated local hosts only.", "anchors": ["pepclibs/msr/MSR.py: _read_remote_optimized, _transaction_write_remote_optimized, _verify, _read, read, read_bits, write, write_bits, flush_transaction, commit_transaction", "pepclibs/helperlibs/Trivial.py: split_csv_line, str_to_int", "pepclibs/_PerCPUCache.py"]}
{"id": "C76", "title": "Restoring saved properties brings back exactly what was saved", "statement": "Saving the writable properties of a target ('pepc pstates save', 'power save', the property part of 'cstates save') and restoring from the saved file makes, in total, exactly one request per property and CPU, die or package that had a value when saving, and each request is for the saved value: whatever the values are by the time of restoring, afterwards everything that was saved has its saved value, and nothing else has been requested. Values are grouped by mechanism, value and scope and numbers are printed as ranges in between, which must lose nothing. A property that cannot be read makes saving fail, not leave it out.", "quantifier": "all property tables, all values of any type, all per-CPU, per-die and per-package readings with any numbers of mechanisms and distinct values, all states at restore time", "why_tests_cant": "Tests restore one saved file on one emulated system; the grouping by mechanism, value and scope with range printing in between has unboundedly many shapes.", "anchors": ["pepctool/_PepcPrinter.py:296-398", "pepctool/_PepcPrinter.py:443-506", "pepctool/_PepcSetter.py:84-190"]}
{"id": "C77", "title": "Restoring saved C-states brings back their status", "statement": "Restoring the file written by 'pepc cstates save' brings every C-state of every saved CPU back to the status (enabled or disabled) it had when saving, whatever the status is by the time of restoring, and changes nothing else: not the C-states of other CPUs, and no other files. Saving itself changes nothing. The package C-state limit is part of the saved file when its register is not locked, and left out when it is locked.", "quantifier": "all sets of CPUs and C-states, all status values when saving and when restoring, with or without cached C-state information", "why_tests_cant": "Tests save and restore on emulated systems where all CPUs have the same status, once; the grouping by status, the name matching and the caches in between multiply.", "anchors": ["pepctool/_PepcPrinter.py:559-604", "pepctool/_PepcPrinter.py:687-705", "pepctool/_PepcPrinter.py:726-795", "pepctool/_PepcSetter.py:319-373"]}
{"id": "C78", "title": "Printed messages name exactly the CPUs, dies and packages they are about", "statement": "The 'pepc ... info' and 'config' commands print, for each value, the CPUs, packages or dies having it in a short form ('CPUs 0-3,8 (package 0)', 'all dies in package 0, die 1 in package 1', 'all packages', 'all CPUs'). A reader knowing the topology gets back exactly the set of CPUs, packages or dies the value is for: nothing is missing, nothing is added, and different sets are never printed the same. The package remark is printed exactly when the CPUs are those of the packages named. Lists of numbers printed in the concise form '800 - 3200 with step 100, 3201' stand for exactly the numbers of the list.", "quantifier": "all topologies, all sets of online CPUs, packages and dies, all non-empty lists of integers", "why_tests_cant": "Tests compare the output for a few emulated systems; ambiguity between two different sets cannot be seen from any finite number of samples.", "anchors": ["pepctool/_PepcPrinter.py:34-122", "pepctool/_PepcPrinter.py:124-200", "pepclibs/CPUInfo.py:588-600"]}
{"id": "C79", "title": "Base, min. operating, max. efficiency and max. turbo frequencies are the ones of the CPU", "statement": "The 'base_freq', 'min_oper_freq', 'max_eff_freq' and 'max_turbo_freq' properties report every requested CPU once, in order, with the frequency the hardware registers (HWP capabilities, platform information, turbo ratio limit and the bus clock) or the kernel files of this very CPU say, also on hybrid processors, where P-cores and E-cores have different performance scales. Frequencies read from registers are multiples of the bus clock and ordered like the levels in the registers. If the registers of one of the CPUs do not have the frequency, nothing is reported from registers and the next mechanism is used. Frequencies derived from ACPI CPPC are the base frequency scaled by performance over nominal performance. The list of available frequencies is the sorted list of the file.", "quantifier": "all register contents, packages, hybrid layouts, bus clocks, sysfs contents, CPU lists and mechanisms", "why_tests_cant": "Test systems have one processor with one set of registers; mixtures of HWP and non-HWP packages, of P-cores and E-cores and of CPUs with and without files are endless.", "anchors": ["pepclibs/_CPUFreq.py:280-335", "pepclibs/_CPUFreq.py:636-715", "pepclibs/_CPUFreq.py:1046-1192", "pepclibs/PStates.py:346-454", "pepclibs/msr/HWPCapabilities.py:75-103"]}
{"id": "C80", "title": "Acceptable frequencies and bus clock", "statement": "The 'frequencies' property lists for every requested CPU the frequencies of the kernel's list, or, with the 'intel_pstate' driver, all the frequencies the hardware accepts in steps of the bus clock, in increasing order, nothing missing and nothing added. The 'bus_clock' property reports for every CPU the bus clock of the processor, whichever mechanisms are asked for, and it is the same bus clock the frequencies of the CPU are computed with.", "quantifier": "all settings, bus clocks, register contents, CPU lists and mechanisms", "why_tests_cant": "Lists of frequencies have unbounded size; the tests have a few recorded systems with a 100 MHz bus clock.", "anchors": ["pepclibs/PStates.py:532-642", "pepclibs/_CPUFreq.py:269-293", "pepclibs/_CPUFreq.py:830-847", "pepclibs/msr/FSBFreq.py:22-76"]}
{"id": "C81", "title": "The idle governor reported is always the one in effect", "statement": "Whatever series of idle driver, current governor, available governors and set governor calls is made on a CPUIdle object, with or without caching, every call reports what is in the kernel files at that time; the governor is the one of the last successful set call, or the initial one; a set call succeeds exactly if there is an idle driver, the governor is an available one, the file exists and the kernel accepts it, and a failing one changes nothing.", "quantifier": "all contents of the three files, all series of calls, all kernel refusals, caching on and off", "why_tests_cant": "The cache is updated, invalidated and read by different methods; tests run a few fixed sequences on one set of files, and never with CPU 0 offline.", "anchors": ["pepclibs/CPUIdle.py:348-414", "pepclibs/CPUIdle.py:476-499", "pepclibs/_PerCPUCache.py:53-101"]}
{"id": "C82", "title": "Reading and changing C-state properties", "statement": "get_prop_cpus() of a CStates object reports for every requested CPU the value which the bits of MSR 0xE2 and 0x1FC and the files of the idle driver stand for, and None exactly if the property is not supported. set_prop_cpus() succeeds, unless the hardware or the kernel refuses, exactly if the property is writable and supported, the value is one of its values (in any letter case, or an alias), the CPUs are online and make up whole units of the property (modules are not supported) and the package C-state limit is not locked; otherwise nothing changes. Whether it succeeds or fails, no other property and no CPU which was not requested changes. After any series of calls every property of every CPU has the value which the last call about it requested, if that call succeeded, and its initial value if there was none.", "quantifier": "all topologies, register contents, register sharing, CPU models with a known table, values, CPU lists and series of set calls", "why_tests_cant": "Properties live in different bits of two registers which CPUs share in different ways; tests check one property at a time on a few emulated systems and never that the others keep their values.", "anchors": ["pepclibs/CStates.py:32-110", "pepclibs/CStates.py:198-293", "pepclibs/msr/PCStateConfigCtl.py:122-303", "pepclibs/msr/PowerCtl.py:47-98", "pepclibs/_PropsClassBase.py:210-228"]}
{"id": "C83", "title": "Every object knows the scopes of its own host", "statement": "In a process with any number of CStates objects for any hosts, whatever methods are called in whatever order, every method of an object uses the scope and the I/O scope which the property has on the host of that object, and knows if the property has none.", "quantifier": "all hosts, numbers of objects and orders of creating objects and calling methods", "why_tests_cant": "The scopes are cached in a module-level dictionary shared by all objects; tests create one object at a time for one host.", "anchors": ["pepclibs/_PropsClassBase.py:1263-1273", "pepclibs/CStates.py:32-110", "pepclibs/CStates.py:275-293"]}
{"id": "C84", "title": "Setting a C-state property of packages reaches all their CPUs", "statement": "set_prop_packages() of a CStates object for the package C-state limit, C1E autopromotion or C-state prewake changes, whether it succeeds or fails, nothing but this property of CPUs of these packages; after success every CPU of these packages has the requested value; it succeeds if no CPU of these packages is locked and neither the hardware nor the kernel refuses.", "quantifier": "all topologies, register contents, packages, values", "why_tests_cant": "Only one CPU per I/O scope unit is written; whether this reaches every CPU depends on the topology, on how the register is shared and on the I/O scope the object believes in.", "anchors": ["pepclibs/_PropsClassBase.py:1077-1106", "pepclibs/_PropsClassBase.py:1192-1249", "pepclibs/CStates.py:257-293", "pepclibs/msr/PCStateConfigCtl.py:285-303"]}
{"id": "C85", "title": "The printed topology table", "statement": "The \"pepc topology info\" command prints a title line and then a table whose columns are the ones asked for with --columns (by default all levels, without \"module\" if no module has online CPUs of different cores and without \"die\" if no package has several dies). The numbers of every online CPU and I/O die the user asks for are on a line; no line is there twice; the lines are sorted by the requested order; unless --online-only is used, they are followed by lines with the numbers of the offline CPUs asked for; there are no other lines. Wrong column names, a wrong order and the \"hybrid\" column on a non-hybrid system are refused, everything else works.", "quantifier": "all machines, sets of online CPUs, targets, column lists and orders", "why_tests_cant": "The table depends on the whole topology, on which CPUs are online and on I/O dies, and the removal of equal lines happens on the formatted text; tests only check that the command succeeds on a few machines.", "anchors": ["pepctool/_PepcTopology.py:20-50", "pepctool/_PepcTopology.py:52-102", "pepctool/_PepcTopology.py:104-195", "pepclibs/CPUInfo.py"]}
{"id": "C86", "title": "Setting a property changes the targeted CPUs and nothing else", "statement": "Setting a property for the target given with the command line options ('--cpus', '--cores', '--modules', '--dies', '--packages', sibling indexes) never changes it for a CPU which is not targeted, whether it succeeds or fails; on success every targeted CPU has the new value; when the target has only a part of a unit of the scope of the property (e.g. of a package), it is refused and nothing is written; otherwise, with a valid value and working mechanisms, it succeeds.", "quantifier": "all topologies, command line options, earlier requests to the target object, properties (scope, I/O scope, mechanisms), values and hardware states", "why_tests_cant": "The options are combined in many ways over topologies with any number of packages, dies and cores; the unit tests use a few options on a few emulated systems.", "anchors": ["pepctool/_PepcCommon.py:110-188", "pepctool/_OpTarget.py:104-197", "pepclibs/_PropsClassBase.py:969-1249"]}
{"id": "C87", "title": "A property is shown for every targeted CPU, once and with the right value", "statement": "Reading a property for the target given with the command line options yields values per CPU, per die or per package; every value is for targeted CPUs only, is what the first supported mechanism returns for every CPU it is for, no CPU has two values, and if reading does not fail every targeted CPU has one. If the CPUs of a die or package do not agree, a single value is not shown: the caller is asked to read per CPU, and that works.", "quantifier": "all topologies, command line options, earlier requests to the target object, properties and values on the CPUs", "why_tests_cant": "Requires values to differ between CPUs of a package in all possible ways, for all options and topologies; the unit tests only compare what is read with the same methods.", "anchors": ["pepctool/_PepcCommon.py:110-162", "pepclibs/_PropsClassBase.py:338-400,519-939"]}
{"id": "C88", "title": "RAPL switches and time windows: success means that the hardware has it", "statement": "Setting ppl1_enable, ppl1_clamp, ppl2_enable or ppl2_clamp through the Power object reports success only if bit 15, 16, 47 or 48 of MSR 0x610 has the requested value on every package asked for, inside and outside of an MSR transaction, whatever limits, switches, reads, flushes, commits and caught errors came before. Getting a switch or a time window shows what the hardware holds. Setting a switch changes no other bit of the register but the limits which are waiting to be written, not even when it fails, and setting the limits never changes switches or windows. On a register which stores what is written and can be read, setting a switch succeeds. The same for the limits is false.", "quantifier": "all topologies, all hardware (read-only or locked bits, read failures), all sequences of operations, all values and CPU lists", "why_tests_cant": "Tests run against an emulated register which takes every write; the claim is about all histories of the write-through cache and transaction buffer, and about hardware which drops bits.", "anchors": ["pepclibs/Power.py:132-210", "pepclibs/msr/PackagePowerLimit.py:47-229", "pepclibs/msr/MSR.py:169-236", "pepclibs/msr/MSR.py:431-545"]}
{"id": "C89", "title": "A TPMI spec file is accepted exactly if it is well-formed, and its bit fields mean what it says", "statement": "A spec file gives registers exactly if it has the four top-level keys, every register has an upper-case name, a fields dictionary, an offset divisible by 4 and a width of 32 or 64, and every bit field has an upper-case name, a one-line description and bits 'high:low' with high >= low. The registers are in the order of the file, and the mask of a field has exactly the bits low..high set and its shift is low. Fields which do not fit the register, overlapping fields or registers are accepted though, and some malformed files cause Python exceptions instead of an error message.", "quantifier": "all YAML documents", "why_tests_cant": "The spec files are data which users may override; tests load the few files of the project, all of which are well-formed.", "anchors": ["pepclibs/Tpmi.py:234-341"]}
{"id": "C90", "title": "The known TPMI features are those with a spec file which are on a device, and devices are in the package the hardware says", "statement": "After the TPMI object is created: a feature is known exactly if a spec file describes it and a device has the debugfs directory with its ID, and the devices of the feature are the devices with that directory; the unknown features are the other IDs; the package of every device is the field PACKAGE_ID of its TPMI_BUS_INFO register, with offset and bits from the spec file; the packages are those of the devices. Files which are not YAML or are broken are skipped within the documented limits. The object is then in a state from which the register access properties (C48-C51, C66) hold. Overriding a standard spec file by one in the user's directory only half works, and some broken spec files end the program.", "quantifier": "all sets of spec files, all debugfs directories, all hardware", "why_tests_cant": "The tests use one emulated system and the standard spec files, none of which is broken or overridden.", "anchors": ["pepclibs/Tpmi.py:122-217", "pepclibs/Tpmi.py:343-510", "pepclibs/Tpmi.py:844-871", "pepclibs/Tpmi.py:975-1020"]}
{"id": "C91", "title": "'pepc tpmi write' writes exactly the selected instances, and 'pepc tpmi read' shows them", "statement": "If 'pepc tpmi write' succeeds, it reports every selected instance of every selected device exactly once, the register or the bit field has the new value in each of them, and no other word of device memory changed. If it fails, what it reported was written, and at most one other selected register may have changed. 'pepc tpmi read' changes nothing and prints exactly the selected registers and bit fields of the selected instances, once, with their current values. After a successful write, a read with the same options shows what was written.", "quantifier": "All machines, memory contents, memory dump layouts, spec files, histories of operations, and all combinations of options (devices, packages, instances, registers, bit fields), also when a write fails half way.", "why_tests_cant": "Tests run the commands against an emulated TPMI with a couple of devices and look at the exit code; they do not check that other instances and devices stay untouched for every selection, nor what is left behind by a failure in the middle.", "anchors": ["pepctool/_PepcTpmi.py:108-235", "pepclibs/Tpmi.py:885-973"]}
{"id": "C92", "title": "The 'cpu-hotplug' commands offline, online and report exactly the requested CPUs", "statement": "From the texts of the command line options to the state of the CPUs: a successful 'pepc cpu-hotplug offline' takes offline every CPU selected by the target options which supports it, a successful 'online' brings every listed CPU online, and nothing else changes, whatever the outcome is. CPUs which do not support hotplug are skipped unless CPUs are named by the user, in which case the command fails. Options with numbers which do not exist change nothing. 'cpu-hotplug info' prints ranges which, parsed back, are exactly the online and the offline CPUs.", "quantifier": "for all option texts, topologies, CPU states and kernels (accepting, ignoring or refusing writes)", "why_tests_cant": "The target options can be combined in arbitrarily many ways, and what happens depends on the topology, on which CPUs support hotplug and on what the kernel accepts; tests cover a handful of emulated systems.", "anchors": ["pepctool/_PepcCPUHotplug.py:20-72", "pepctool/_OpTarget.py:40-128,199-505", "pepclibs/CPUOnline.py:73-147", "pepctool/_PepcCommon.py:38-47"]}
{"id": "C93", "title": "What the info commands print for people is exactly what was read", "statement": "The lines printed by 'pepc ... info' (and after changing a property, by 'config') for a list of properties tell, for every CPU, die or package the properties were read for, the value that was read there, exactly once, and nothing else: values are grouped by mechanism, property and value, each group is one line, and a reader cutting a line at the last ' for ' gets the value and the set it is for. Values that are not supported are printed as 'not supported' or left out, as asked for; empty lists are left out; with grouping, each line comes after the line naming its source. If a property cannot be read or a name is unknown, nothing is printed. The name printed in the line identifies the property.", "quantifier": "all property tables, all values of any type, all topologies, all readings per CPU, die or package, all mechanisms, with and without grouping and action words", "why_tests_cant": "Tests compare outputs of a few emulated systems by eye or not at all; grouping and short texts can hide or mix up CPUs in unboundedly many ways.", "anchors": ["pepctool/_PepcPrinter.py:124-286", "pepctool/_PepcPrinter.py:345-552", "pepclibs/Power.py:34-48"]}
{"id": "C94", "title": "What is printed about requestable C-states is what the kernel says about them", "statement": "'pepc cstates info' prints, for every C-state asked for, one block: for every selected CPU exactly one of 'on' and 'off', 'on' exactly if the kernel has the C-state enabled for this CPU, and then the latency, target residency and description, each value some selected CPU has once and no other values; which CPUs a value is for can be told. C-states with an unknown status are left out, the number of printed C-states is returned, and nothing changes in the system. If C-states are not supported this is told; if they cannot be read nothing is printed.", "quantifier": "all sysfs contents, CPUs, C-state names, topologies, and combinations of grouping, action word and skipping read-only information", "why_tests_cant": "The number of combinations of C-states, statuses and CPUs is unbounded, and CPU numbers are abbreviated in many ways.", "anchors": ["pepctool/_PepcPrinter.py: CStatesPrinter.print_cstates, _build_aggr_rcsinfo, _print_aggr_rcsinfo_human, _print_val_msg", "pepclibs/CPUIdle.py: get_cstates_info"]}
{"id": "C95", "title": "The 'cstates' commands change and tell exactly what was asked for", "statement": "If 'pepc cstates config' succeeds, every C-state meant by '--enable'/'--disable' (the last option meaning it wins) has the requested status on every CPU selected by the target options, no other file of the kernel changes, and the printed lines, read back, say exactly which C-states were set for which CPUs. If it fails, only files of meant C-states of selected CPUs may have changed, only to requested values; bad targets, unknown mechanisms and missing options change nothing. The command succeeds when the names exist and the kernel stores the values. 'pepc cstates info' changes nothing and tells exactly what is in the files for the selected CPUs.", "quantifier": "all topologies, all target options, all lists of options and C-state names, all contents of cpuidle files, all kernel answers", "why_tests_cant": "Tests run a few command lines on emulated systems; the claim composes option parsing, target selection, the cpuidle cache, writes and printing for all systems and command lines", "anchors": ["pepctool/_PepcCStates.py:23-161", "pepctool/_PepcSetter.py:300-317", "pepctool/_PepcCommon.py:67-109"]}
{"id": "C96", "title": "The 'aspm' commands", "statement": "If 'pepc aspm config' succeeds, the policy given with '--policy' is the active one, whether or not the kernel obeys writes; the L1 state given with '--l1-aspm' (in any letter case) is that of the device given with '--device'; other devices are unchanged; options without an argument change nothing; the lines say what the policy was and is and what the L1 state is. If it fails, no device has changed, and the policy may have changed only if '--policy' was given with a name. It is refused, with nothing changed, without options, for '--device' with nothing but '--policy', and for '--l1-aspm' without a device or with a bad state. It succeeds with a kernel which obeys. 'pepc aspm info' changes nothing and tells the active policy, all policies and the L1 state.", "quantifier": "all policy names, all devices, all option combinations, all kernels (obeying or not)", "why_tests_cant": "Tests have one policy file and no PCI devices; the order and combinations of options and disobedient kernels are not tested", "anchors": ["pepctool/_PepcASPM.py:19-113", "pepclibs/ASPM.py:21-154"]}
{"id": "C97", "title": "The 'info' and 'config' commands for properties", "statement": "For any class of properties whose set/get methods are local to the I/O scope and read back what they hold: 'pepc pstates|power|pmqos config' changes nothing for CPUs which are not targeted and for properties that were not given a value, whatever the outcome. If it succeeds, every property given with a value has that value (with the default unit if it is a bare number) on every targeted CPU, and the printed lines tell, once for every targeted CPU, the properties asked for as they were and the properties set as they now are. If writes are deferred to the commit, a failing command has written nothing or everything, unless the commit itself fails, and then all the values were good. What every single write and the transactions keep, the whole command keeps. It refuses, writing and printing nothing, without options, for unknown mechanisms and for targets which do not exist. It succeeds when the properties can be read and set on the target. 'info' changes nothing and tells exactly the values of the targeted CPUs; it says that nothing is supported exactly when that is so.", "quantifier": "all classes of properties which keep the contract, all topologies, all targets, all option lists in all orders, all states", "why_tests_cant": "The outcome depends on the interaction of option order, transactions, per-mechanism fallback, target caching, scopes and line aggregation; tests run single commands on a few emulated machines and look only at the exit status.", "anchors": ["pepctool/_PepcPStates.py:22-127", "pepctool/_PepcPower.py:22-124", "pepctool/_PepcPMQoS.py:21-124", "pepctool/_PepcSetter.py:24-82,219-266", "pepctool/_PepcCommon.py"]}
{"id": "C98", "title": "The 'pmqos' commands", "statement": "If 'pepc pmqos config --latency-limit X' succeeds, the file of every targeted CPU has the number of microseconds X stands for: a bare number is microseconds, '1.5ms' and '1h 30m' are seconds with a prefix or a duration. Whatever the outcome, files of CPUs which are not targeted are not written, no file is written unless '--latency-limit' has a value, and a file is either as it was or holds what the kernel made of exactly that number. A value for the global limit or a value that cannot be parsed makes the command fail with nothing written. The lines tell the limits asked for as they were and the new limit as it is in the files, once for every targeted CPU. It succeeds if the kernel accepts the limit. 'pepc pmqos info' writes nothing and tells the limits as they are in the files, and that nothing is supported exactly when that is so.", "quantifier": "all topologies and targets, all contents of the files, all kernels (obeying or not), all texts for up to 2^44 microseconds, all roundings of floating point numbers within the IEEE error", "why_tests_cant": "The text goes through number parsing, a default unit, human unit parsing, floating point seconds, rounding back to microseconds, a transaction with verification, and printing; tests run a handful of values on recorded systems and compare with the tool's own output", "anchors": ["pepctool/_PepcPMQoS.py:21-124", "pepctool/_PepcSetter.py:24-82", "pepclibs/PMQoS.py:25-110", "pepclibs/_LinuxPMQoS.py:33-94", "pepclibs/_SysfsIO.py:190-232", "pepctool/_PepcPrinter.py:142-152"]}
{"id": "C99", "title": "The 'save' and 'restore' commands for properties", "statement": "For any class of properties which keeps the contract of C97: 'pepc pstates|power|pmqos restore' changes a property of a CPU only if the file has an entry for it and the CPU (for frequencies: or for the other frequency of the min/max pair), whatever the outcome. If it succeeds, every entry took effect on every CPU it names, unless a later entry names the CPU too, and the lines tell what the CPUs have now. If the class writes nothing before the commit, nothing changes, or everything takes effect, or the commit failed. A file which is not a dictionary of known properties with lists of value/scope entries is refused with nothing changed. Restoring, in any state, what was saved in another state brings back every writable property of every saved CPU, including the minimum and maximum frequencies although one may have to be moved out of the way of the other.", "quantifier": "all machines, classes with the contract, files, targets, states when saving and when restoring, outcomes of the single writes", "why_tests_cant": "tests restore one file on one emulated machine right after saving it; they do not vary the state, the scope of the entries, the order of the frequencies or where a failure happens", "anchors": ["pepctool/_PepcSetter.py:77-190", "pepctool/_PepcPStates.py:129-197", "pepctool/_PepcPower.py:126-191", "pepctool/_PepcPMQoS.py:126-191", "pepctool/_PepcPrinter.py:296-327"]}
{"id": "C100", "title": "The 'pmqos save' and 'pmqos restore' commands", "statement": "If 'pepc pmqos save' succeeds in one state and 'pepc pmqos restore' of the file succeeds in another, the file of every saved CPU has the number of microseconds again which it had when saving, although the value goes through floating point seconds twice. Whatever the outcome of restoring, files of other CPUs do not change, and a file is either as it was or holds what the kernel made of exactly the number which was saved for this CPU. Both commands succeed if the files hold numbers and the kernel stores what is written. Restoring a file written by hand gives every CPU the limit its last entry says (seconds, or a text with a unit).", "quantifier": "all topologies and targets, all contents of the files when saving and when restoring, all kernels (obeying or not), all limits up to 2^44 microseconds, all roundings of floating point numbers within the IEEE error", "why_tests_cant": "The round trip depends on floating point rounding for every number, on which CPUs are grouped into one entry, and on where a write fails; tests save and restore one state of one emulated machine", "anchors": ["pepctool/_PepcPMQoS.py:126-191", "pepctool/_PepcSetter.py:77-190", "pepclibs/PMQoS.py:25-110", "pepclibs/_LinuxPMQoS.py:33-94", "pepclibs/_PropsClassBase.py:436-444"]}
{"id": "C101", "title": "Uncore frequency commands on a driver with two interfaces", "statement": "Configuring or restoring uncore frequencies gives every die exactly the requested frequency (numbers, 'min', 'max', 'mdl') and changes no other die, whatever was configured via the legacy per-package interface before. A frequency beyond the limits or beyond the other frequency of any given die is refused for all dies with a truthful reason, otherwise it is accepted. Frequencies read back as set. Restoring saved frequencies succeeds whatever the current frequencies are. After any history of commands, even if write operations fail, min. <= max. and both are within the package limits.", "quantifier": "for all machines (packages, dies, limits, legacy files), all current frequencies and locks, all values, all dies, all saved files, all histories of commands and of failing writes", "why_tests_cant": "There are unboundedly many combinations of legacy locks, current frequencies, per-die limits, orders of options, and failing writes", "anchors": ["pepclibs/PStates.py:551-570", "pepclibs/PStates.py:737-773", "pepclibs/PStates.py:1011-1096", "pepclibs/_UncoreFreq.py", "pepctool/_PepcSetter.py:249-291"]}
{"id": "C102", "title": "Where a command runs: options before and after the sub-command", "statement": "The options '-H', '-U', '-K', '-T' and '-D' (short or long) may be given before the sub-command, after it, or both, in any order: the last value is used, an option which is not given has its default, and the command runs on the named host (or on the emulated system), never elsewhere. No argument after the sub-command is ignored: unknown options, leftover arguments and repeated options are errors. Other attributes never change. '--list-mechanisms' lists every mechanism of the properties of the class exactly once. Options whose order matters are executed in the order of the command line, with their last value. In the developer tools the SSH options are moved behind the sub-command with their values, without losing anything.", "quantifier": "all command lines, all namespaces of the main parser, all option values", "why_tests_cant": "The number of placements and orders of five options with arbitrary values is unbounded; a wrong pairing of an option with the value of another one shows only for particular combinations of equal values and orders.", "anchors": ["pepctool/_Pepc.py:106-145", "pepctool/_Pepc.py:1079-1152", "pepclibs/helperlibs/ArgParse.py:65-141", "pepclibs/helperlibs/ArgParse.py:248-284"]}
{"id": "C103", "title": "Emulated systems behave like real ones", "statement": "On an emulated system (the '-D' option) a sysfs file has exactly what was last written to it, whatever was in it before; the emulated sysfs files satisfy the contract of plain files on which the claims about the sysfs layer rest; the name of an EPB policy reads back as its number; setting an ASPM policy makes it the only active one and keeps the list; the device node of a CPU is a set of independent 64-bit registers which start with the values of the dataset (0 if there are none); the list of online CPUs is exactly the CPUs whose own file says so, in order, and writing to the file of one CPU changes this CPU only.", "quantifier": "for all encodings which can be read back, file contents, data, sequences of MSR reads and writes, register lists, sets of CPUs and directory orders", "why_tests_cant": "Tests run on a few datasets; most pepc tests themselves run on the emulation, so its mistakes cannot be seen by them.", "anchors": ["pepclibs/helperlibs/emul/_RWFile.py:71-181", "pepclibs/helperlibs/emul/_ROFile.py:18-109", "pepclibs/helperlibs/emul/_EmulDevMSR.py:16-60", "pepclibs/helperlibs/EmulProcessManager.py:260-290"]}
{"id": "C104", "title": "MSR features do not interfere, on any processor", "statement": "Every class of pepclibs/msr offers exactly its documented features, and says that a feature is supported on a CPU if and only if the processor has it there (the model is listed, the CPU flags are there, HWP is on in the package for the HWP registers). On every processor model the supported features occupy bits within the 64-bit register which do not overlap with each other, so writing any feature of any register, with any value, successful or not, never changes what another feature reads as. A number or name which was accepted is read back; numbers which do not fit and read-only features are refused and nothing changes. Every feature has a scope.", "quantifier": "All processor models, all CPU flags and package layouts, all 18 registers and all pairs of their features, all register contents, all values (negative ones included), all lists of CPUs, all failures of the hardware.", "why_tests_cant": "The tables depend on the processor model (prefetchers, package C-state limits, FSB codes); the tests run on emulation data of a few models and write one feature at a time.", "anchors": ["pepclibs/msr/_FeaturedMSR.py:368-397", "pepclibs/msr/_FeaturedMSR.py:280-315", "pepclibs/msr/MiscFeatureControl.py:112-147", "pepclibs/msr/PCStateConfigCtl.py:128-302", "pepclibs/msr/HWPRequest.py:154-182", "pepclibs/msr/UncoreRatioLimit.py:72-79"]}
{"id": "C105", "title": "Drivers are left as they were found", "statement": "If an MSR or UncoreFreq object has to load a kernel driver, closing the object unloads it, so that the list of loaded modules is the one from before; a driver which was loaded before is never unloaded, and no command is run if the device file or directory is there. This holds for any number of MSR objects which are created and closed in any order. Waiting for the device file succeeds exactly if it appears in time. Debugfs is mounted only if it is not mounted, and unmounted at the end only if it was mounted by the tool.", "quantifier": "all hosts, module lists, environments obeying the laws of modprobe/rmmod/dmesg, all delays, all sequences of creating and closing objects", "why_tests_cant": "tests run with emulated process managers where no driver is loaded; the order of creation and closing, the delays and failures of commands are unbounded", "anchors": ["pepclibs/helperlibs/KernelModule.py:22-142", "pepclibs/msr/MSR.py:583-659", "pepclibs/_UncoreFreq.py:540-661", "pepclibs/helperlibs/FSHelpers.py:25-107", "pepclibs/Tpmi.py:975-1028"]}
{"id": "C106", "title": "A failed change is reported with the right reason", "statement": "Setting a minimum or maximum CPU frequency succeeds exactly if every CPU shows the written value within the allowed number of reads (three on Intel CPUs with hardware power management, one otherwise). If it fails, the CPUs before the failing one have the value, the ones after it are untouched, and the exception is that of the write, that of the read, or a verification failure; failing to find an explanation never hides it. The explanations of the message (frequency not in the list of supported ones; turbo disabled and the request above base frequency) are true whenever they are given and given whenever they apply. A failed EPP change is explained exactly if the kernel forbids it. The same holds in a transaction.", "quantifier": "all frequencies, CPU lists, read-back sequences, failing writes and reads, values of the consulted properties", "why_tests_cant": "the kernel refusing or delaying a change depends on hardware state; emulated files always keep what is written to them, so the error branches and their units are never executed by tests", "anchors": ["pepclibs/PStates.py:814-857 _handle_write_and_read_freq_mismatch", "pepclibs/PStates.py:959-996 _handle_epp_set_exception", "pepclibs/_CPUFreq.py:217-248 _set_freq_sysfs", "pepclibs/_CPUFreq.py:383-432 set_intel_pstate_mode", "pepclibs/_SysfsIO.py:165-219,338-371"]}
{"id": "C107", "title": "An include statement stands for the text of the included file", "statement": "Loading a YAML file (the restore commands, TPMI specifications, emulation data) succeeds exactly if its include statements can be replaced by the text of the included files and no file is included twice; the result is the mapping of that text, with the keys in the order of the text and the last value of every key. Relative paths start at the directory of the including file. Loading always comes to an end, also if files include each other.", "quantifier": "all file contents, all include graphs (also circular ones), all paths, all ways to name the first file", "why_tests_cant": "the include graphs and key overlaps are unbounded; the repository has no test with nested, repeated or circular includes", "anchors": ["pepclibs/helperlibs/YAML.py:74-163 _load", "pepclibs/helperlibs/YAML.py:86-103 dict_constructor", "pepctool/_PepcSetter.py:175-190 restore"]}
{"id": "C108", "title": "TPMI commands print what is there", "statement": "Whoever reads the text of 'pepc tpmi read' line by line, with the headings, learns about exactly the selected registers and bit fields of the selected instances, with the device, the package and the values the memory has. The text of 'pepc tpmi ls' tells exactly the known features with their descriptions, with '-l' exactly the instances of each feature with device and package, and with '--all' exactly the numbers of the unknown features; devices are printed at the same depth.", "quantifier": "For all machines, memory contents, spec files, selections, executions before the command, names of features, registers, fields and devices.", "why_tests_cant": "Tests compare the output for a few recorded machines with one device per package; they do not show that the text is unambiguous for every machine and every value.", "anchors": ["pepctool/_PepcTpmi.py:20", "pepctool/_PepcTpmi.py:50", "pepctool/_PepcTpmi.py:76", "pepclibs/Tpmi.py:885"]}
{"id": "C109", "title": "The processor is identified by what lscpu says", "statement": "The vendor, family, model, stepping, architecture, byte order, number of sockets, model name and flags of the processor are what the last line of 'lscpu' with the respective label says: decimal values are numbers, other values are texts, spaces around do not matter, lines with other labels have no effect, and there is no value if there is no line with the label. The base frequency is the number before 'GHz' after the last '@' of the model name. Exactly the online CPUs have flags, the words of the 'Flags:' line. The description is the model name, or the model number and its codename for a 'Genuine Intel' processor. '--override-cpu-model' accepts decimal and hexadecimal numbers, changes the model number to this number, appends it to the description, changes nothing else, and refuses what is not a number.", "quantifier": "for all lscpu outputs, sets of online CPUs, tables of codenames and override texts", "why_tests_cant": "The output of lscpu differs from system to system: order, indentation and presence of lines, and values, are unbounded; the tests only have the outputs of a few recorded systems.", "anchors": ["pepclibs/_CPUInfoBase.py:339-404", "pepclibs/_CPUInfoBase.py:481-482", "pepctool/_PepcCommon.py:48-65"]}
{"id": "C110", "title": "Systemd units get the right state and are restored", "statement": "'start()', 'stop()' and 'restart()' succeed only if all units are in the desired state, change no other unit, and a failure leaves the units after the failed one untouched. 'restore()' brings each saved unit to the state it had right before the call which saved it and touches no other unit. 'stop_ntp()' stops exactly the active NTP services and returns them, and 'restore_ntp()' brings all units to the state they had, also after 'stop_ntp()' failed for one of them; 'stop_timers()' and 'restore_timers()' do so for the listed timers. The warning about 'tuned' is printed if and only if the service is active, and an error of this check never breaks a command.", "quantifier": "for all systems (states and effects of systemctl), units, and sequences of calls", "why_tests_cant": "The states of units, failures of systemctl at any point and the order of calls are unbounded; the tests have no systemd.", "anchors": ["pepclibs/helperlibs/Systemctl.py:21-174", "pepctool/_PepcCommon.py:18-35"]}
{"id": "C111", "title": "Project files and datasets are taken from the documented places", "statement": "Data files of the project are taken from the first of the documented places which has them (directory of the program, variable of the project, $HOME/.local/share, $HOME/share, $VIRTUAL_ENV/share, /usr/local/share, /usr/share), it is an error if and only if no place has them, and helper programs are searched likewise. The '-D' option runs the command for the given directory, for the dataset with the given name, or for all datasets: each one once, 'common' is not one of them, a failed command is the end. For each command, the data which it reads are loaded.", "quantifier": "for all environments, files, directories, dataset names, and commands", "why_tests_cant": "Which places exist, what the variables are and which datasets there are is different on each system; the tests run in the source tree only.", "anchors": ["pepclibs/helperlibs/ProjectFiles.py:17-219", "pepctool/_Pepc.py:1021-1074", "pepctool/_Pepc.py:1132-1137"]}
{"id": "C112", "title": "The suggestion about a missing program is right", "statement": "When a command cannot be executed because its program is not installed, the result is ErrorNotFound about this command, whatever the host answers; the message has the command and the reported error, and suggests the OS package which has the program on the operating system of the host (Fedora, CentOS, RHEL, Ubuntu, Debian), or the program itself if the package is not known. The operating system is what the os-release file says, for any content of the file made of comments, blank lines and assignments, quoted or not; the last assignment of a name counts. What an object remembers does not change what its calls return.", "quantifier": "all hosts, all os-release files, all commands, all error messages, all programs and OS IDs, all sequences of calls", "why_tests_cant": "Tests run on one host, which has the programs installed; the files, the commands and the error texts are unbounded.", "anchors": ["pepclibs/helperlibs/ToolChecker.py:90-210", "pepclibs/helperlibs/_ProcessManagerBase.py:600-633"]}
{"id": "C113", "title": "Objects are closed by those who created them, once", "statement": "An object which gets a process manager, CPU information, an MSR object, a sysfs object from the caller does not close it; an object which it creates itself, at any time, is closed exactly once, when it is closed first; the caller may close objects in any order and more than once; no exception is raised; an object which was closed keeps no objects. An object whose constructor failed early can be closed.", "quantifier": "all classes which treat their attributes as the classes of the project do, all sequences of creating and closing objects, all ways to share objects", "why_tests_cant": "The number of object graphs and of orders of creating and closing is unbounded; a test sees neither an object which is not closed nor one which is closed too early, unless it is used later.", "anchors": ["pepclibs/helperlibs/ClassHelpers.py:119-197", "pepclibs/_PropsClassBase.py:1297-1328", "pepclibs/PStates.py:1136-1156", "pepclibs/_CPUFreq.py:804-810"]}
{"id": "C114", "title": "File operations do the same on a remote host as on the local one", "statement": "Checking, creating, listing and removing files and directories with the process manager of a remote host, which sends shell commands with quoted paths and small Python scripts and parses what they print, returns and changes the same as the process manager of the local host, which uses system calls; directory entries are complete and come newest first.", "quantifier": "for all kernels with the laws of Linux, all states of the file system, all sequences of calls with paths and names which need no quoting, and all remote hosts with a Python interpreter", "why_tests_cant": "the commands are strings interpreted by two shells and by Python on another machine; tests run them with a few paths, mostly on emulated hosts", "anchors": ["pepclibs/helperlibs/SSHProcessManager.py:826-952", "pepclibs/helperlibs/LocalProcessManager.py:333-499", "pepclibs/helperlibs/_ProcessManagerBase.py:712-756"]}
{"id": "C115", "title": "An emulated system is what its dataset describes and stays in its directory", "statement": "With '-D', after a module is initialised every file, register and command described by its dataset is there with that contents, and nothing else changed; initialising modules again does not undo what was changed since; file operations and commands concern the emulated system only, never the files of the host which runs the emulation, and unknown commands are refused; a malformed dataset is an Error.", "quantifier": "all datasets (any number of files, registers, commands, lines), all states, all paths, all kernels, all commands", "why_tests_cant": "Tests use a few datasets and check properties of pepc, never that the emulation keeps changes when another module is loaded, or which commands and operations reach the real host.", "anchors": ["pepclibs/helperlibs/EmulProcessManager.py:48-447", "pepclibs/helperlibs/emul/_EmulFile.py:14-40", "pepclibs/helperlibs/emul/_ROFile.py:40-62", "pepclibs/helperlibs/emul/_RWFile.py:78-104"]}
{"id": "C116", "title": "Messages go to the right stream with the right prefix, and the exit status tells the outcome", "statement": "Once the logger is configured, every call prints exactly the text of its level: information goes unchanged to the standard output and nothing else goes there; debug messages, notices, warnings, errors go to the standard error with their prefix ('pepc: warning: ...'). With '-q' nothing less than a warning is printed and all the warnings and errors are, '-d' notwithstanding. A log file gets every line of both streams in the same order. Colors only add escape sequences. warn_once() prints once per place of the code. An error of the project ends the program with status 1 and its message on the standard error, even with '-q'; the status is 0 if and only if the arguments were parsed, there was a subcommand and it succeeded for every dataset.", "quantifier": "All command lines, prefixes, levels, color settings, and sequences of calls (messages, warn_once, changes of the prefix, log files); all outcomes of parsing and of the subcommand.", "why_tests_cant": "Tests look at single messages and the result depends on the sequence of calls (prefix changes, log files, earlier warnings) and on all of the settings together.", "anchors": ["pepclibs/helperlibs/Logging.py", "pepctool/_Pepc.py"]}
{"id": "C117", "title": "Every setting has a file of its own, and the code finds it", "statement": "The paths which the classes build for frequencies, governors, drivers, turbo, EPP, EPB, latency limits, online states, idle states, uncore frequencies, L1 ASPM and MSRs are the files in which the kernel keeps these settings; two different settings (or the same setting of two CPUs, packages, dies or devices) never share a file, so changing one leaves all the others alone. Whatever was called before on a CPUFreqSysfs object (its path cache never gives a wrong path), reading a frequency gives the number in the file of that CPU in Hz, setting it writes the number in kHz to the files of the given CPUs in order and nowhere else, stopping at the first failure. The object warns at most once, and it warns about the kernel bug on affected hosts (no E-cores, kernel before 6.5).", "quantifier": "all settings, CPU numbers, state indices, packages, dies, addresses, file contents, refusals by the kernel, histories of calls", "why_tests_cant": "Tests use a handful of CPU numbers and fresh objects; injectivity of names over all numbers and coherence of the cache over all histories are not testable", "anchors": ["pepclibs/_CPUFreq.py:63-268", "pepclibs/_CPUFreq.py:631-634", "pepclibs/EPP.py:182-184", "pepclibs/EPB.py:138", "pepclibs/_LinuxPMQoS.py:28-31", "pepclibs/CPUOnline.py:68-71", "pepclibs/CPUIdle.py:231", "pepclibs/_UncoreFreq.py:123-135", "pepclibs/ASPM.py:121-166", "pepclibs/msr/MSR.py:117"]}
{"id": "C118", "title": "Messages about unsupported properties are truthful, and 'is supported' means a mechanism gives a value", "statement": "When a property cannot be read or changed, the message names exactly the CPUs, dies or packages that were asked for, all the mechanisms in the order of the attempts, and every different reason once; it is an exception if and only if there are reasons. A property is reported as supported for a CPU or a package if and only if the first mechanism which does not refuse gives a value, and errors other than a refusal are not hidden. The claim is false for a single package (the message says 'CPU') and for a die dictionary with an empty list (IndexError instead of None).", "quantifier": "all lists of CPUs, packages, dies, mechanisms, reasons, property names; all mechanism answers", "why_tests_cant": "Tests use a few targets; the texts are built for arbitrary number lists with ranges, any number of packages and mechanisms, and the single-package and empty-list cases are never printed in tests.", "anchors": ["pepclibs/_PropsClassBase.py:445-505", "pepclibs/_PropsClassBase.py:623-643", "pepclibs/_PropsClassBase.py:662-794", "pepclibs/_PropsClassBase.py:947-967", "pepclibs/CPUInfo.py:1102-1125", "pepclibs/helperlibs/Human.py:569-608"]}
{"id": "C119", "title": "The interactive shell runs one command at a time, and a call gets the outcome of its own command", "statement": "Commands run over SSH share one interactive shell, which is guarded by a flag and a lock. A command is never sent to a shell in which another command is still running or which was told to exit; run() is only given the exit code of its own command; a command is run once; when all calls have ended, the shell is available for the next one. It holds for programs with one thread which only use run(), whatever fails or times out, except that a command the PID of which cannot be read is run twice. With several threads it is false: the flag can be cleared twice, so that two commands run in the shell at once and outcomes are swapped; it holds for threads if nothing fails and no command ends before its PID has been read. A command which timed out keeps the shell for ever.", "quantifier": "all numbers of calls and threads, all orders of their steps, all failures of the host, the network and the lock", "why_tests_cant": "It depends on the order in which threads run and on when the output of a command arrives; a test sees one order.", "anchors": ["pepclibs/helperlibs/SSHProcessManager.py:190-244", "pepclibs/helperlibs/SSHProcessManager.py:291-304", "pepclibs/helperlibs/SSHProcessManager.py:316-372", "pepclibs/helperlibs/SSHProcessManager.py:461-546", "pepclibs/helperlibs/SSHProcessManager.py:1138-1144"]}
{"id": "C120", "title": "A frequency limit given by name becomes the frequency of that name of every CPU", "statement": "Setting 'min_freq' or 'max_freq' of a set of CPUs to a name ('min', 'max', 'base'/'hfm'/'P1', 'eff'/'lfm'/'Pn', 'Pm') sets each CPU to its own frequency of that name, as get_prop_cpus() shows it, also if the CPUs differ (hybrid processors). The request is accepted exactly if the value of every CPU is within its own limits and does not cross its other limit; otherwise nothing is written. A request that is accepted covers every CPU once, whatever the readers do: no CPU is left out because a reader ended early and values are not shifted between CPUs. 'eff' falls back to the minimum for all CPUs or for none.", "quantifier": "all hosts, CPU lists, names and numbers, limits, mechanisms, readers failing at any CPU", "why_tests_cant": "The values come from four lazily zipped generators with fall-backs; which CPU a value goes to depends on where each of them ends, on every combination of per-CPU values.", "anchors": ["pepclibs/PStates.py:884-957", "pepclibs/PStates.py:364-454", "pepclibs/_PropsClassBase.py:519-572", "pepclibs/_PropsClassBase.py:1016-1063"]}
{"id": "C121", "title": "The outcome of a command is reported right, whatever ran before", "statement": "run() returns exactly the lines the command printed to stdout and to stderr (all lines in order and an empty stderr with mix_output), with its exit code; a missing program is reported as ErrorNotFound exactly when a shell says so, a command that does not end as ErrorTimeOut, run_verify() returns exactly for exit code 0 and otherwise raises an Error whose message names the host, the exit code, the command and shows both streams. None of it depends on the commands that ran before in the same process manager.", "quantifier": "for all commands, outputs, exit codes, options and all histories of earlier calls", "why_tests_cant": "Tests run a few commands, each on a process manager in one state; a flag which stays set in the interactive shell shows only in particular orders of calls.", "anchors": ["pepclibs/helperlibs/LocalProcessManager.py:205-265", "pepclibs/helperlibs/SSHProcessManager.py:431-546", "pepclibs/helperlibs/SSHProcessManager.py:582-643", "pepclibs/helperlibs/_ProcessManagerBase.py:305-335", "pepclibs/helperlibs/_ProcessManagerBase.py:633-683"]}
{"id": "C122", "title": "A command runs on the host that was asked for", "statement": "'-H localhost' (the default) runs the command with the local process manager whatever other SSH options are given; with any other host name the command never runs locally: an SSH connection is made to the address the SSH configuration files have for the host (the one of the first file which has it), or else to the host itself, as the given user, with the given key and time-out; a key is used only if it is a regular file to which others have no access. The environment variable USER is left as it was.", "quantifier": "for all host names, users, keys, time-outs, SSH configuration files and environments", "why_tests_cant": "Tests use the local host and emulated hosts; what happens depends on the configuration files and the environment of the user.", "anchors": ["pepclibs/helperlibs/ProcessManager.py:31-92", "pepclibs/helperlibs/SSHProcessManager.py:1053-1198", "pepctool/_Pepc.py:1108-1140"]}
{"id": "C123", "title": "Options take effect in the order of the command line", "statement": "'pepc pstates config' with several options makes the changes in the order of the options: the state of the system afterwards is the one the same changes give when they are made one after the other, every requested change is there with the value given last and nothing else is changed; if a change is refused, the changes given before it are in effect.", "quantifier": "for all lists of changes of files and registers and all kernels (what a write does, and whether it is refused, may depend on the earlier writes)", "why_tests_cant": "Emulated hosts in tests have independent files; the order matters only with drivers whose files depend on each other.", "anchors": ["pepctool/_PepcSetter.py:65-76", "pepclibs/_SysfsIO.py:90-118", "pepclibs/_SysfsIO.py:190-231", "pepclibs/msr/MSR.py:169-230", "pepclibs/EPP.py:128-136", "pepclibs/EPB.py:94-101"]}
{"id": "C124", "title": "Saved settings are where the user asked for", "statement": "If a 'save' command ('pepc cstates|pstates|pmqos|power save') succeeds, the settings are in the place given with '-o' (the standard output without '-o' or with '-'), restoring from there loads exactly what was read, and no other file changed. If it fails, the files are as before. After any number of 'save' commands a file has what the last command for it wrote. The message 'No writable properties' is printed exactly if there was nothing to save.", "quantifier": "all commands with 'save', all arguments of '-o' and '--from', all outcomes of opening the file, checking the target and reading, all contents of the files, all sequences of 'save' commands", "why_tests_cant": "Tests save on one emulated host, to a fresh file, with valid targets; they do not look at the file after a failure, at '-' as the file name, or at hosts without writable properties.", "anchors": ["pepctool/_PepcCStates.py:160-201", "pepctool/_PepcPStates.py:129-163", "pepctool/_PepcPMQoS.py:126-160", "pepctool/_PepcPower.py:126-160", "pepctool/_PepcPrinter.py:287-294", "pepclibs/helperlibs/YAML.py:20-72", "pepctool/_Pepc.py:401-402"]}
{"id": "C125", "title": "Every property name leads to a setting of its own", "statement": "Every property of P-states, C-states, power and PM QoS can be read by CPU and by die with each of the mechanisms its description lists, from an object of this mechanism. Different names are never read from the same setting. A writable property is set where it is read, with each mechanism, by die and by CPU, and setting never writes what is read for another name. Unknown names are refused.", "quantifier": "all classes, all property names and mechanism names, also arbitrary texts", "why_tests_cant": "Tests set and read a property through the same names, so that a name wired to the setting of another property, in the setter and the getter alike, is not noticed, and hosts where a mechanism is supported are not at hand for all combinations.", "anchors": ["pepclibs/PStates.py:694-773", "pepclibs/PStates.py:986-1021", "pepclibs/PStates.py:1089-1095", "pepclibs/CStates.py:198-273", "pepclibs/Power.py:126-208", "pepclibs/PMQoS.py:63-88"]}
{"id": "C126", "title": "The program that is found is the one that would run", "statement": "which() of a process manager returns the path of the program that the shell of the host would run under the given name, and it tells a program which is missing from a failure: ErrorNotFound if the program is required, None if it is not. The answer does not depend on the calls before it.", "quantifier": "for all programs, PATH values, file systems, aliases, hosts with and without 'which', and sequences of calls", "why_tests_cant": "depends on the current directory, on PATH, on which of the look-up commands the host has and on the exit codes of its shell, and on what earlier calls have remembered; unit tests run on one machine with 'which' installed", "anchors": ["pepclibs/helperlibs/LocalProcessManager.py:553-573", "pepclibs/helperlibs/SSHProcessManager.py:1004-1051"]}
{"id": "C127", "title": "A command reaches the shell as it was given", "statement": "The command given to run(), with whatever quotes, spaces, line ends or other characters, is what is run on the host, in the given directory, under the process ID that is printed: the text around it (printing the process ID, changing the directory, the marker of the interactive shell, and the quotes) changes neither the words of the command nor what else the shell does.", "quantifier": "for all command texts, directories and markers, in the interactive shell, in a session of its own, and on the local host", "why_tests_cant": "an arbitrary command can contain anything that ends a quote or a line; tests run a few harmless commands", "anchors": ["pepclibs/helperlibs/SSHProcessManager.py:417-480", "pepclibs/helperlibs/LocalProcessManager.py:158-162"]}
{"id": "C128", "title": "An option on the command line reaches the property of its name", "statement": "For every class of properties (P-states, C-states, power, PM QoS): on a command line of 'config' or 'info' made of options for properties, of the other options of the sub-command, and of options of the program, each option reaches the property (or attribute) of its name with the value given with it; the ordered options come in the order in which they are first given, with their last value. A read-only property given to 'config', or a sub-property given to 'info', is refused wherever it stands on the command line.", "quantifier": "all classes of properties, all command lines of these items in any number and order, all values which do not begin with a dash; for refusals all command lines", "why_tests_cant": "There are infinitely many command lines; what an option means depends on the names of all the other options (abbreviations), and on whether the next argument is taken as its value.", "anchors": ["pepctool/_Pepc.py:219-240 _add_info_subcommand_options", "pepctool/_Pepc.py:253-270 _add_config_subcommand_options", "pepctool/_Pepc.py:129-145 parse_args", "pepclibs/helperlibs/ArgParse.py:123-141 OrderedArg"]}
{"id": "C129", "title": "A write which the kernel refuses is not taken for a success", "statement": "When a file is written in a 'with' statement on a file object of a process manager, and the statement ends without an exception and without a warning, then the kernel got and accepted all the text, in order. On remote hosts, for MSRs, TPMI registers, and EPP values which are written for the first time, no exception is enough. Failures of the methods of such file objects are exceptions based on Error, which tell missing permissions and missing files from other reasons.", "quantifier": "all sequences of writes, flushes and seeks, all texts shorter than the buffer, all behaviours of the kernel, local and remote hosts", "why_tests_cant": "When the kernel sees the text depends on buffering, and refusals come from kernels and hardware which tests do not have; emulated files refuse nothing.", "anchors": ["pepclibs/helperlibs/ClassHelpers.py:33-122 WrapExceptions", "pepclibs/helperlibs/LocalProcessManager.py:294-322 open", "pepclibs/_SysfsIO.py:139-164 _write", "pepclibs/msr/MSR.py:112-131 _transaction_write", "pepclibs/EPP.py:128-165 _write_to_sysfs", "pepclibs/Tpmi.py:735-746"]}
{"id": "C130", "title": "The table of CPU caches is what lscpu printed, with numbers as numbers", "statement": "CPUInfo.get_cache_info() returns one item per cache which 'lscpu --caches --json --bytes' lists, in that order, under the name of the cache, with all its attributes, where decimal texts have become numbers and everything else is unchanged; later calls return the same table; failures are reported as an Error and do not leave a partial table behind.", "quantifier": "for every list of caches, every set of attributes, every later reply of lscpu", "why_tests_cant": "Tests use the lscpu output of a few machines, none of which has duplicate names, null values or other number notations, and call the method once per object.", "anchors": ["pepclibs/CPUInfo.py:1064-1099", "pepclibs/helperlibs/Trivial.py:155-174"]}
{"id": "C131", "title": "The version of a kernel binary is found where file prints it", "statement": "KernelVersion.get_kver_bin() returns a version exactly if 'file' says that the path is an executable Linux kernel and prints a version, and returns the version printed there; every other output is an Error. get_kver() and get_kver_ktree() return what uname and make print, without white space.", "quantifier": "for every path, every output of file, uname and make", "why_tests_cant": "get_kver_bin() is not called by any test, and depends on how greedy regular expressions pick one of several matches in arbitrary output.", "anchors": ["pepclibs/helperlibs/KernelVersion.py:88-157"]}
