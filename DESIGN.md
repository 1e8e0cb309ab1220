# Formal model of intel/pepc: design

Source: `/repo` (Python). The model is a set of Lean 4 modules under `lean/Verif/`. Properties are
listed in `properties.jsonl`, the mapping to theorems is in `MANIFEST.json`, mutation experiments are
in `seeded/LOG.jsonl`.

## How the code is modelled

* Every Python function of interest becomes a total, computable Lean function with the same branches.
  Each definition carries a comment citing the file and lines it models and what was simplified.
* Python exceptions are values: `Except E α` where `E` distinguishes the exception classes the code
  distinguishes (`Error`, `ErrorNotSupported`, `ErrorTryAnotherMechanism`, ...).
* Python `dict` = association list in insertion order (`Verif/Lib/Dict.lean`); `set` = list used through
  membership only; Python `int` = `Int` or `Nat` where the code guarantees non-negative values.
* Generators are modelled by the list of values they yield, plus how they end (normally or with an
  exception), wherever the consumer can see a partial sequence.
* Hardware and kernel are explicit parameters: an MSR is a function of (scope unit, address), a sysfs
  file is a function of the path, a file that may misbehave is an arbitrary stream of read results.
* Stateful objects (caches, transactions, CPU online state) are a state record plus step functions;
  properties are proved for all finite histories by induction.
* Property theorems live in `Verif/Props/*.lean`, separate from the model (`Verif/Model/*.lean`)
  and from specification vocabulary (inside the Props file, marked "Specification"). Helper lemmas
  live in `Verif/Lemmas/*.lean` or next to the model. Beside each theorem an `example` gives a concrete
  non-trivial instance of its hypotheses.
* Where the code does not satisfy a property, the negation is proved on a concrete witness
  (`..._counterexample`), the strongest true part is proved as `..._partial`, and the disagreement is
  recorded in the section "Disagreements between the properties and the code".

## Plan per property

| id | what is modelled | how it is proved |
|----|------------------|------------------|
| C01 | `_normalize_bits`, `get_bits`, `set_bits` over `Int` bit operations | bit extensionality (`testBit`) for every position |
| C02 | same, with negative values and ranges above bit 63 | counterexamples; partial: values >= 0 and msb <= 63 |
| C03 | same | bit extensionality over two ranges |
| C04 | MSR object: cache + hardware, ops read/write | simulation invariant "cache entry = hardware value of its scope", induction over the history |
| C05 | `MSR.write` | invariant + case analysis on "already cached" |
| C06 | transaction buffer, flush order | counterexample for interleaved siblings; partial under one representative CPU per scope unit |
| C07 | transaction ops | induction over the op list, hardware component unchanged |
| C08 | `write_bits` | from C01, C04, C05 |
| C09 | two bit fields of one register with different scopes | counterexample; partial: equal scopes |
| C10 | `PerCPUCache` | case analysis, for all topologies |
| C11 | `_SysfsIO` state machine | refinement to "last written value" |
| C12 | `_SysfsIO` transactions | invariant buffer/file, induction |
| C13 | write failure branches | invariant "cached value = file contents" also after failures |
| C14 | `_verify` retry loop against an arbitrary read stream | induction on retries |
| C15-C22 | topology table as a list of rows, `_get_level_nums`, siblings, div, select, normalize | list reasoning, no bound on the number of rows |
| C23-C25 | strings as lists of characters; `rangify`, CSV parser, decimal parser | induction over runs; decimal round trip lemma; counterexample for dedup |
| C26-C29 | mechanism loop with arbitrary mechanism behaviour; scope validation; `_reduce_cpus_ioscope` | induction over the mechanism list; counterexample + partial for reduction |
| C30-C33 | `_set_cpu_freq`, `PStatesSetter` | invariants over histories; counterexample for the reversed order ("mim" typo) |
| C34-C36 | integer arithmetic of frequency conversion, frequency list, `mdl` | `omega`/`Nat.div` reasoning, induction |
| C37-C39 | `_FeaturedMSR` value normalisation, C-state limit decode/encode/lock | table reasoning for arbitrary injective tables, whole-table checks of the shipped tables |
| C40 | RAPL units as exact rationals 2^-u; `_validate_ppl` | integer arithmetic; invariant over histories |
| C41-C42 | `_EPBase` mechanism loops | induction; counterexamples for mixed failure patterns |
| C43-C44 | record stream parser, C-state toggling | induction over the record stream; counterexample for one state per CPU |
| C45 | `CPUOnline._toggle` | induction over the CPU list and over histories |
| C46 | `split_kver`, `kver_lt` | lexicographic order lemmas |
| C47 | distance matrix, candidate loop | refinement of the matrix to the recursive distance; fold invariant |
| C48-C51 | TPMI bit fields, 32-bit word memory, dump text parser, iteration | bit extensionality; memory update lemmas; position induction over the text; counterexamples |
| C52-C53 | `_OpTarget` | set reasoning; history counterexample for `strict` |
| C54-C57, C60, C63 | PM QoS, ASPM, uncore directory names, turbo, governors | arithmetic and list reasoning |
| C59 | `HWPRequest` control bits | from C01-C08; counterexample for unrequested CPUs |
| C61 | EPP/EPB setting followed by reading | on top of C41; counterexamples for shared registers |
| C62 | widening of targets to dies and packages | set reasoning; counterexamples |
| C64-C65 | uncore frequency driver interface | model of the kernel driver (`Props/UncoreSpec.lean`), invariants over histories |
| C66 | TPMI iteration arguments | list reasoning; counterexample |
| C58, C67-C69 | text to number, number to text; floating point as a rounding parameter | error propagation lemmas, list reasoning over the text |
| C70 | `MSR` object against plain registers (`RegFile`) | simulation over histories of calls; counterexample for the "global" scope |
| C71 | `SysfsIO` object against plain files (`SysFiles`) | simulation over histories of calls |
| C72 | building and updating the topology table from the files of the kernel (`Props/TopoSpec.lean`) | invariant over histories of hot-plugging and requests; counterexample for dies without online CPUs |
| C73 | collecting the output of a local process or an SSH session (`Props/ProcSpec.lean`) | invariant over histories of arriving chunks and `wait()` calls; counterexamples for the last line and the exit code |
| C74 | collecting the output of a command in the interactive shell, the marker | invariant over histories; progress; counterexamples for output without a final new line, late standard error output |
| C75 | MSR access of remote hosts by scripts (`_read_remote_optimized()`, `_transaction_write_remote_optimized()`) | agreement with the local variant over all histories of calls and transactions (invariant: siblings have the same cache entry); refinement of plain registers; counterexample for one register used with two scopes |
| C76 | saving properties to a file and restoring them (`Props/PropsYamlSpec.lean`) | the multiset of requests equals the multiset of readings; final value of every cell |
| C77 | saving and restoring the status of the C-states | end to end over the model of `CPUIdle` and its caches; counterexamples for a status that differs between CPUs and for a partly locked package C-state limit |
| C78 | texts naming CPUs, dies and packages, concise lists (`Props/PrinterTextSpec.lean`) | a reader of the texts inverts the formatting; counterexample for systems with one die in package 0 and more in others |
| C79 | base, min. operating, max. efficiency and max. turbo frequency of CPUs (`Props/FreqInfoSpec.lean`) | values computed from the registers and files of the CPU alone; all-or-nothing for the registers; every CPU reported once; counterexamples for CPUs with different files |
| C80 | acceptable frequencies and bus clock (`Props/FreqListSpec.lean`) | membership and order of the list; one bus clock for the property and for the computations; counterexamples: the list depends on the settings, mechanism "doc" first |
| C81 | idle driver and governor of a CPUIdle object over arbitrary series of calls | cache coherence invariant, induction over the series |
| C82 | C-state properties: reading, changing, independence of properties and CPUs, histories of set calls | refinement to a map from property and CPU to value, induction over calls |
| C83 | Scopes of C-state properties in a process with several objects | invariant over series of creations and calls |
| C84 | Setting C-state properties of packages | composition of C28 and C82 with the sharing of registers |
| C85 | what "pepc topology info" prints | refinement of the command to the machine: rows of the sorted topology table (C72) correspond to CPUs and I/O dies, printed words to their numbers; induction over the loops |
| C86 | Setting a property of the target | composition of the target (C52, C53) with the default set methods (C28, C29); invariant over the mechanisms |
| C87 | Reading a property of the target | composition of the target with the get methods; the I/O scope validation implies equal values |
| C88 | RAPL switches, windows and limits on the MSR object with its cache and transactions | invariant over operation sequences: the cache, the buffer and the hardware agree in all bits but those of the limits |
| C89 | loading a TPMI spec file: the checks and the masks | acceptance is equivalent to a separate specification of well-formed documents; meaning of masks by testBit |
| C90 | discovery of TPMI features: spec files, debugfs directories, packages | folds over files, directories and devices with an invariant of the maps; equivalence with a separate specification of files and directories; bridge to the executions of C48-C51 and C66 |
| C91 | 'pepc tpmi read' and 'pepc tpmi write' | Props/TpmiCmd.lean: the loop over the generator with its body is handled by one rule (invariant of the body, the generator only touches the cache of memory maps); composed with C48-C51, C66 and C90 |
| C92 | the 'cpu-hotplug' commands | composition of the target options (C52), the parser (C23), CPU hotplug (C45); options are rendered from lists of numbers and ranges |
| C93 | printing properties for people | grouping as in C76 with mechanisms and unsupported values kept, texts for numbers as in C78; each line is read back by cutting it at the last ' for ' |
| C94 | printing requestable C-states | dictionaries of CPUs by C-state, key and value, lines read back with C78 readers, composed with C43 down to the sysfs files |
| C95 | the 'cstates' commands end to end: options, target, cpuidle, printing | composition of C44, C52, C92 (options), C94 over lists of options; frame by an invariant (`Kept`) over the steps of the command |
| C96 | the 'aspm' commands | composition of C55 and C63 in the steps of the commands; relational specification of what every option does and prints (`PolicyDone`, `L1Done`) |
| C97 | the 'info' and 'config' commands for properties | composition of C86, C87, C93 (printing) and C92 (options) for any class that keeps a `Contract`; loop invariant (`Going`) over the properties still to be set, with the retry in the other order; the lines are specified by what they tell about every CPU (`TellsAbout`) |
| C98 | the 'pmqos' commands | the PM QoS class is proved to keep the `Contract` of C97 (with a ghost write counter), and C97 and C67/C68 (parsing) are composed; the invariant form of C97 gives what is in the files whatever the outcome |
| C99 | the 'save' and 'restore' commands | generic over the `Contract` of C97: induction over the entries of the file with a "last entry that touches the CPU wins" specification; the saved file is described through C76 and C97's readings; the frequency pairs by splitting the file at the blocks of the two properties |
| C100 | the 'pmqos save' and 'pmqos restore' commands | the PM QoS class with writes done at once (no shared transaction) keeps the `Contract` of C97, so C99 applies; the number of microseconds survives seconds and back by the rounding bounds of C98 |
| C101 | uncore frequency commands on the driver with a legacy and a per-die interface | refinement: the code over the driver of C65 takes the same decisions as the abstract frequency logic of C30-C33 over pairs of numbers; a simulation lifts this to whole commands, so C32 and C33 apply; the order is an invariant of all commands with failing writes |
| C102 | the options for the host and the dataset on the command line, ordered options, `--list-mechanisms` | refinement of the search in the unknown arguments to 'the last value of each option', soundness for all argument lists (permutation), composition with `main()` |
| C103 | emulated sysfs files, MSR device nodes, online CPU list | byte-list files; simulation of plain files and of the MSR hardware |
| C104 | the features of all MSR classes on all processor models: support, disjoint bits, independence, round trips | the tables are checked once for all listed models with `decide +kernel` and generic soundness lemmas, then lifted to all hosts, register contents and values; negative values need no hypothesis because the write of a negative register value is refused |
| C105 | kernel drivers and debugfs: load on demand, restore at the end | the kernel and the programs are laws on an abstract environment (modprobe may add dependencies or nothing, rmmod removes, failing commands change nothing); induction over sequences of object creations and closings with the invariant that an extra module has an open owner; the wait loop is a well-founded recursion over the clock |
| C106 | A failed change is reported with the right reason | Case analysis of the verification loop, induction over the CPUs, decision logic of the two handlers |
| C107 | An include statement stands for the text of the included file | Big-step specification of the expansion; soundness by induction over the depth, completeness by induction over the expansion; termination by counting paths |
| C108 | Text of the TPMI commands | line reader with headings, composition with C51 and C91 |
| C109 | Identification of the processor by 'lscpu', '--override-cpu-model' | Induction over the lines and the patterns: the value of a key is the conversion of the last match. The pattern of the base frequency is characterised by a decomposition of the model name, in both directions |
| C110 | Systemd units: start, stop, restore, NTP services, timers, the 'tuned' warning | Induction over the units, calls and services, with an abstract system: what is-active shows, and that an action changes no other unit |
| C111 | Places of project files, datasets of '-D' | Refinement of the search loops to 'first existing of the documented list'; invariant of the nested loops over directories and names |
| C112 | suggestion about missing programs, OS discovery | round trip of os-release files, table equality for all names, invariant over call sequences |
| C113 | objects are closed by those who created them, once | object heap with makers; invariant over all operations, induction over the depth of closing |
| C114 | `Model/FileOps.lean` | methods of both process managers; commands down to quotes, words and arguments; the kernel is a parameter with the laws of `Spec.Laws` |
| C115 | `Model/EmulHost.lean` | loading datasets, files, registers, commands; the kernel and where files exist are parameters; YAML is a structure |
| C116 | Logging: the texts of the levels, the streams, the threshold, log files, warn_once(), error_out(), and the exit status of main() | Verif/Model/Logging.lean: refinement to a trace specification over any sequence of calls |
| C117 | `Model/CPUFreqFiles.lean` | the files of the settings and the frequency methods; texts of paths are split at the slashes; invariant of the path cache over call histories |
| C118 | `Model/PropErrors.lean` | messages about unsupported properties (`_do_prop_not_supported`, `dies_to_str`, `uncapitalize`), single-CPU and single-package methods; mechanisms are parameters |
| C119 | `Model/IntShell.lean` | the flag, the lock and the phases of the calls which use the interactive shell, as steps of threads; invariants over all interleavings; counterexamples for races |
| C120 | `Model/FreqNames.lean` | `_get_numeric_cpu_freq()` and `_set_cpu_freq()` with the zipped generators; `Means` (what `get_prop_cpus()` shows), every CPU gets its own value and none is left out |
| C121 | `Model/RunCmd.lean` | `run()`, `run_verify()`, `get_cmd_failure_msg()` of both process managers, one call after the other; the lines a command prints and its exit code are inputs |
| C122 | `Model/Connect.lean` | `get_pman()`, `SSHProcessManager.__init__()` up to `connect()`, `_cfg_lookup()`; the SSH configuration as Paramiko reads it, `glob()`, `stat()` and `float()` are inputs |
| C123 | `Model/SetOrder.lean` | the two transactions of `set_props()` together with the EPP and EPB files, which are written at once; the kernel is an arbitrary function |
| C124 | `Model/SaveFile.lean` | The 'save' commands from '-o' to the text in the file or on the standard output, and what 'restore' loads from it. Texts are lists of top-level YAML entries and `{}` lines; what is read from the host and what is done with the loaded dictionary are parameters (C76, C77, C99, C100). Assumed of the YAML library: the block style of non-empty dictionaries, `{}` for an empty one, and that `{}` beside other text is a syntax error |
| C125 | `Model/Dispatch.lean` | The dispatch methods (`_get_prop_cpus()`, `_set_prop_cpus()`, `_get_prop_dies()`, `_set_prop_dies()` and what they call) of the four classes of properties, from names to an item of an object, and names, mechanisms and the writable flag of the PROPS dictionaries. Not the methods of the objects |
| C126 | `Model/Which.lean` | `which()` of the local and the remote process manager, with the remembered look-up command |
| C127 | `Model/ShellCmd.lean` | the texts given to shells: `shlex.quote()`, process ID, directory, marker |
| C128 | `Model/PropOptions.lean` | how properties become options of `info` and `config` (_Pepc.py, all the tables of options), and what `argparse` makes of the arguments (exact match, unique prefix, `nargs` 0, 1 and `?`, negative numbers) |
| C129 | `Model/WrapFile.lean`, `Model/WrapSysfs.lean` | the wrapper which translates exceptions of files, the `with` statement on it, buffering, and the sequences of calls by which sysfs files, MSRs, TPMI registers and EPP are written |
| C130 | `Model/CacheInfo.lean` | `CPUInfo.get_cache_info()`: `lscpu` and `json.loads()` are parameters; JSON values are texts, whole numbers and null |
| C131 | `Model/KverBin.lean` | `get_kver()`, `get_kver_ktree()`, `get_kver_bin()` with `split=False`: the output of the commands is a parameter, the regular expressions are modelled with the choice of the last match |

## Trusted base

* The Lean 4.33.0 kernel.
* Axioms: the theorems depend on at most `propext`, `Classical.choice` and `Quot.sound` (`#print axioms` on
  each theorem of `MANIFEST.json`). No axioms are added, there is no `sorry`, no `native_decide`, no `bv_decide`.
* The hand translation from Python to Lean. Each definition cites the modelled lines.
* The assumptions about hardware, kernel and the Python runtime listed per module below.

## Assumptions per module

* **Lib/Dict, Lib/PyList, Lib/PyStr**: dictionaries keep the insertion order; strings are lists of characters;
  `strip()` removes ASCII white-space.
* **Lib/Float**: a floating point operation is the exact operation followed by a function `fl` with
  `fl 0 = 0` and a relative error of at most 2^-53 in the range of normal numbers (`IsRounding`). IEEE double
  precision is an instance; the theorems hold for every such function.
* **CPUInfo**: the topology table is well-formed (`WF`): every CPU has one row, a CPU's core belongs to one die
  and so on. C72 is the theorem that the tables built by `_CPUInfoBase` are like that.
* **TopoBuild**: the files of the kernel are described by `Shows` in `Props/TopoSpec.lean`: number ranges,
  '/proc/cpuinfo' blocks with the "physical id" and "core id" lines at the positions the code expects, cache and
  die files, nodes. `get_dies_info()` of the uncore driver is constant. Sets are lists without duplicates, table
  lines are values, the object is not used any more after a failure.
* **Bits, MSR**: a register is a 64-bit number; registers of CPUs in one scope unit are the same register. Reads
  and writes may fail arbitrarily. The variants for remote hosts (MSR.py 133-167, 287-366)
  are in `Model/MSRRemote.lean`: the script run on the remote host is modelled as printing one `CPU,value` line per CPU, or
  failing if one access fails (then the values read are lost); the script writing a transaction does the writes in order
  and stops at the first one that fails.
* **RegFile**: registers without cache and transactions, used by the modules on top of `MSR`. C70 is the theorem
  that the `MSR` object behaves like that.
* **SysfsIO**: the file system is a parameter (`World`): any contents, any failures. `Ordinary` files show what
  was written to them or refuse the write.
* **SysFiles**: files without cache and transactions, used by the modules on top of `SysfsIO`. C71 is the
  theorem that the `SysfsIO` object behaves like that. Paths are structured values instead of strings.
* **Trivial, KernelVersion, Human**: ASCII digits only (Python accepts all Unicode digits), and no limit of 4300
  digits.
* **PropsBase**: the methods of sub-classes are parameters with the contract `Complete`: a generator which ends
  normally has yielded each CPU once.
* **PStates, CPUFreq**: the kernel stores a frequency exactly or refuses it; frequencies of a CPU are in files
  of its own; iterators are exhausted by the caller; float division in the MSR mechanism is exact.
* **HWP, FeaturedMSR, PCStateConfigCtl**: on top of RegFile. `str.lower()` is for ASCII; features with methods of
  their own (`_get_<name>()`) are modelled only where listed.
* **Power**: a floating point number is a dyadic fraction with unlimited exponent, infinity or NaN; scaling by
  a power of two is exact.
* **EP**: the translation between policy names and numbers done by the kernel is the parameter `kern`. The package
  register supports EPP if the per-CPU one does.
* **CPUIdle**: sysfs files have one line, the residency counters do not change between two reads, the directory
  listing is a list of records (CPU, state, file, contents).
* **CPUOnline**: the kernel changes only the CPU written to; the set of present CPUs is constant.
* **ClosestMatch**: `str.lower()` is an arbitrary function.
* **Tpmi**: the memory of a feature is shown by the kernel as text in one of the two formats of
  `Lemmas/TpmiDump.lean`; a write changes exactly one 32-bit word or is refused (`Machine.WF`). YAML spec files
  were parsed already.
* **OpTarget**: options are parsed already (lists of numbers or "all"); `None` and an empty list are the same
  where the code does not distinguish them.
* **PMQoS, ASPM**: the kernel shows what was written or refuses it. Missing files are "not found" on writing, too.
* **UncoreFreq**: the kernel driver is modelled in `Props/UncoreSpec.lean`: the legacy directory of a package limits
  the values of the newer directories.
* **ProcOut**: the output is captured and arrives as chunks of decoded text in the queue, at arbitrary times
  (`Tick`, `after`); empty chunks never arrive. Operating system calls (starting a process, `waitpid()`, the SSH
  library) are parameters. Only ASCII digits in the marker line. Fallbacks after a failure to read the PID are not
  modelled.
* **PropsYaml, CStatesYaml**: the YAML library is not modelled, what is loaded is what was dumped; Python's equal
  dictionary keys `True` and `1` are one key. Reading a property is a parameter (the list of value dictionaries or the
  exception). The property part and the C-states part of a file are modelled apart. C-state names have no commas and
  white-space.
* **PrinterText**: texts are written as lists of words joined by spaces. The formatting of one number (`_format_unit()`)
  is a parameter for lists; numbers in lists are integers.
* **FreqInfo**: sysfs files as in `SysFiles` (one text per path, no caching), registers are numbers below no bound (only the named bits
  are used). Whether the processor model supports a register field, the P-core CPUs and the scaling factor are parameters. The MHz of
  the bus clock table are floating point numbers; they are modelled as Hz (the multiplication is exact for all table values).
  `bios_limit` is read for every vendor. The packages are lists of CPU numbers.
* **Human**: infinities and NaN are modelled, the sign of zero is not. `num2si()` is for finite numbers.
* **FreqList**: the current driver, min. and max. frequency are parameters (what the properties report).
* **CStates** (C82): the hardware keeps a register per unit (`Env.same`), CPUs sharing MSR 0xE2 are in the same unit of
  `c1_demotion` and of `pkg_cstate_limit`, CPUs sharing MSR 0x1FC in the same package (die on Cascade Lake AP); hosts
  without these registers are other vendors; the caches are covered by C04, C05, C08 and C81. Numbers 0 and 1 given for
  an on/off property pass the conversion and then raise `AttributeError`; this is a refusal.
* **PropScopes** (C83, C84): an object is created with the module-level dictionary as it is at that time; a call stands
  for any method which needs the scope of a property. C84 assumes that CPUs of the same I/O unit share the register.
* **TopoPrint** (C85): the target (`OpTarget`), offline CPUs and P-core CPUs are inputs; `Targets` says that asking
  `OpTarget` gives the same answer in every state of the CPUInfo object. As in C72, every die with CPUs must have an
  online CPU, otherwise it is taken for an I/O die; choosing only the online CPUs as the present ones of the machine
  satisfies this. `.lower()` and `.upper()` change ASCII letters only.
* **TPMI spec files** (C89): the YAML loader is a parameter; its documents consist of integers, strings, dictionaries
  with string keys and other values.
* **TPMI discovery** (C90): the events of the YAML parser and the loaded documents are parameters of a file; debugfs is
  mounted; a missing 'mem_dump' file is an empty one (both are errors); feature directories are named by the number of
  the feature, with leading zeroes as the kernel prints them.
* **Printing properties** (`Model/HumanPrint.lean`, C93): formatting one number with its unit is a parameter (C38 is
  about it), the logger printing the line and the descriptions of mechanisms are not modelled. What is read for a
  property is a parameter, as in C76.
* **Printing C-states** (`Model/HumanCStates.lean`, C94): as in C77, `True` and 1 are the same dictionary key and the
  number is kept as the key; there are no `None` values; log messages are lines.
* **Property commands (C97).** The class (`PStates`, `Power`, `PMQoS`) is a parameter: its set, get, start and commit
  functions are assumed to keep the `Contract` (proved for an example class). The two
  transactions ("msr", "sysfs_io") are one `commit`. Reading does not change the state. Not modelled: overriding the CPU
  model, the 'tuned' warning, the YAML output of 'info' (see C76).
* **PM QoS commands (C98).** What the kernel does with a text written to a file is a function of the CPU and the text
  (`Kernel`), floating point rounding is any function within the IEEE relative error, `str()` of a `float` is a
  parameter. The cache of `SysfsIO` is not visible (C11 - C13). A ghost counts the writes of every file.
* **Save and restore (C99).** The round trip of a dictionary through YAML (`YAML.dump()`, `YAML.load()`) is trusted; the
  model starts from the dictionary. What a single read or write does is the `Contract` of C97.
* **PM QoS save and restore (C100).** As C98 and C99. The class is modelled as the 'restore' command uses it, with its
  own `SysfsIO` object and no transaction.
* **Uncore commands (C101).** The driver and the sysfs tree are as in C64/C65 (a parameter decides which write
  operations fail). The sysfs transaction is not modelled for uncore files: writes are done at once. The bus clock and
  the vendor, which matter for 'mdl' only, are parameters (`Clock`). Legacy limits cover the limits of the dies
  (`Covers`), which is how the kernel computes them.
* **Command line** (`Model/CmdLine.lean`): `_check_unknown_args()`, `PepcArgsParser.parse_args()`, `main()` up to the
  call of the function of the command, `_list_mechanisms()`, `OrderedArg`, `SSHOptsAwareArgsParser.parse_args()`. Not
  modelled: argparse itself (what it recognises before and after the sub-command is a parameter), the loop over several
  datasets, `_get_emul_pman()`.
* **C103 (`Model/Emul.lean`).** A file is a list of bytes with a position; Python's text encoding is a parameter
  (`Encoding`: what is encoded decodes to itself and has at least one byte per character). `C103_plain_files` gives the
  contract of C71 and `C103_msr_hardware` the hardware step of the MSR model. Not modelled: how the dataset files are
  unpacked, the emulated commands, recursive sysfs files.
* **C104** models the FEATURES dictionaries of all 18 modules, the CPU model numbers of CPUModels.py and the
  construction of the objects. Numbers of RaplPowerUnit, PackagePowerLimit and PackagePowerInfo are the raw ones (C40 is
  about the units). `msr_bits_str()`, which nothing uses, is not modelled (it looks up the key "fname" instead of the
  feature name and always fails).
* **C105** models KernelModule.py (without the `opts`, `unload` and `dmesg` arguments), the driver parts of MSR.py and
  _UncoreFreq.py, mount_debugfs() (without the `mnt` argument, paths compared as texts) and the part of the constructor
  of Tpmi.py after the search for the spec directories. Commands are texts given to an environment; its laws (structure
  Kernel in DriversSpec.lean) are assumptions about modprobe, rmmod and dmesg. A command which cannot be started counts
  as failed.
* **SetErrors** models the verification loop of `_SysfsIO`, `_set_freq_sysfs()`, the two handlers of `PStates` which add
  explanations, and the same changes in a transaction. Not modelled: the sleeps, the texts of the messages, and the
  merging of writes to the same file (every CPU has its own file).
* **YamlLoad** models `_load()` of YAML.py with its include statements and its constructor for mappings. The YAML
  parser, rendering, aliases and keys which are not texts are not modelled; values are scalars or opaque collections.
  The depth of recursion is limited by a number which does not matter for the results (`C107_total`).
* **C108** The reader of `Props/TpmiTextSpec.lean` takes the text line by line and keeps the headings (feature, device,
  package, instance, register); it is written without the printing functions. Every `_LOG.info()` call is one line, the
  text of the 'bits' key is a parameter without '['.
* **Identification of the processor** (`Model/CPUIdent.lean`): `_get_cpu_info()`, `_get_cpu_description()` and
  `override_cpu_model()`. The output of 'lscpu' is a list of lines, the regular expressions are modelled by prefix and
  suffix tests, `lower()` is modelled for ASCII letters, the table of processor models is a parameter. The set of flags
  is a list of words.
* **Systemd units** (`Model/Systemctl.lean`): `Systemctl` without `close()`, and `check_tuned_presence()`. The system is
  a parameter; the theorems assume that 'systemctl is-active' tells the state and that an action on a unit does not
  change other units (no dependencies between units). The text of error messages and 'systemctl status' are not
  modelled.
* **Project files and datasets** (`Model/ProjectFiles.lean`): `ProjectFiles` without the functions which describe the
  places, `_get_next_dataset()`, the choice of modules in `_get_emul_pman()`, and the loop of `main()`. Paths are texts,
  the methods of the process manager and `os.listdir()` do not fail, messages are dropped.
* **ToolChecker** (`Model/ToolChecker.lean`): `_read_os_release`, `get_osname`, `get_osid`, `tool_to_pkg`, `check_tool`,
  `_command_not_found`, `Error.indent(2)`. A file is the lines read before the end or before an exception; ASCII letter
  case; `which()` does not fail.
* **C113 (`Model/Closing.lean`).** Objects have numbers, attributes are `None`, booleans or objects;
  `ClassHelpers.close()` is modelled statement by statement, the classes are tables of the attributes (from the caller,
  created, borrowed) and of the lists passed to `ClassHelpers.close()`, read off the constructors and the `close()`
  methods. Who created an object is recorded in the state and not read by the model of the code. Objects do not create
  anything after they were closed, and users close only what they created. Not modelled: what `close()` does besides
  (unloading drivers, unmounting, temporary directories), objects in containers (`_uncfreq`, lists of MSR features).
* **File operations (C114).** The kernel is a parameter (`Kernel`), with the laws of Linux stated in
  `Props/FileOpsSpec.lean` and met by a list-based file system. Trusted: the shell splits words as `words` does, `test`,
  `mkdir`, `mkfifo`, `unlink`, `rm` and the two Python scripts do what `execWords` says. Not modelled: times as floating
  point numbers, `parents=True`, other processes changing files.
* **Emulated systems (C115).** The configuration of a module is a structure with the texts it refers to; the contents of
  the base directory is a dictionary. The file operations are those of C114, with the same kernel parameter. Which words
  of a command are existing files is a parameter (`Where`).
* **C116** models one logger (Logging.py levels, `_MyFormatter`, `_MyFilter`, `configure`, `configure_log_file`,
  `set_prefix`, `warn_once`, `_print_traceback`, `error_out`) and the exit status of `main()`. Trusted: Python's
  `logging` (handlers are called in the order they were added, each with its filter and formatter), the escape sequences
  of colorama, the traceback of the interpreter. Not modelled: children of the logger (each has its own set of places
  which warned), '%' in a prefix (it is part of a format string), failures of writing. The options '-q', '-d', '--force-
  color' are looked for literally in the command line, so the abbreviations which argparse accepts ('--force-col',
  '-q' combined with other short options) do not have the same effect here.
* **C117** takes `path / name` of 'pathlib' as joining with a slash (names are not empty and not '.'), and the table of
  files (`Setting.file`) as what the kernel documents. It models the object with 'verify=False'; C106 has the
  verification.
* **C118** messages about unsupported properties name the right targets, mechanisms and reasons; 'is supported' is the
  answer of the first mechanism which does not refuse.
* **C119** - the time between the steps is not modelled; the marker and the chunks are the subject of C74; one call
  stands for one command; `send()` is all or nothing; what happens in a session of its own after it was started is left
  out; closing of the shell object (which does nothing, since `SSHProcess.close()` skips objects with a marker) is left
  out.
* **C120** (`Model/FreqNames.lean`): the current-limit readers and the setters of the mechanisms are parameters
  (`InOrder`: a reader reports the CPUs in order, all of them unless it fails); the readers of the named frequencies are
  the model of C79. Caches behind the readers are not part of it (C71).
* **C121** takes the lines of a command as given; C73 tells how they are collected and C119 how several threads share
  the shell. Failures of the connection and of reading the PID are not modelled. That `set_combine_stderr()` of Paramiko
  holds until it is called again is taken from its documentation.
* **C122** ends where Paramiko is called. What `SSHConfig.lookup()` returns is an input; it may well always have an
  address, in which case the first configuration file decides alone. `port` and `password` are not modelled,
  `get_pman()` does not have them.
* **C123** takes the changes a property asks for as given (how they are chosen is the subject of C30-C33, C41, C97 and
  others). The kernels in the counterexamples are simplified: 'intel_pstate' refuses EPP values while the governor is
  "performance", and it writes the register when the governor is changed.
* **C124** full statement: `SavedRight` in `Props/SaveFileSpec.lean`, which fails for 'cstates save -o -', for a file
  with an empty part, and for failing commands
* **Which** (`Model/Which.lean`): `which()` of `LocalProcessManager` and `SSHProcessManager`, `_which_cmd`; a regular
  file that can be executed is a predicate on paths, the answers of the look-up commands are given by the specification
  (`Props/WhichSpec.lean`). Not modelled: failures of the connection and `Path()` of the names.
* **ShellCmd** (`Model/ShellCmd.lean`): `_format_cmd_for_pid()`, the texts of `_run_in_new_session()` and
  `_run_in_intsh()`, the marker, and the text for the local shell. The shell itself is part of the specification
  (`Props/ShellCmdSpec.lean`): quotes, words, lists of simple commands, `exec`; pipes, expansions other than `$$` and
  `$?`, and the like are not described, texts with them are outside of the theorems about simple commands (not of
  C127_interactive, where they are within quotes).
* **C128** trusts the model of `argparse` (`destOf`, `kind`, `parse` in `Model/PropOptions.lean`): the library is not in
  the repository. `--opt=value`, `-mvalue` and `--` are not modelled; `-h` is an option like any other.
* **C129** trusts the model of the file objects: those of Python keep what is written until a flush, a seek or the end
  (texts shorter than the buffer), those of the SFTP module keep nothing, and `close()` tries once. The other models
  which write files (`SysfsIO`, `EP`, `ASPM`, `IdleGov`, `CPUOnline`, `CPUIdle`) take as a parameter what a write
  reports. With C129, on the local host a refusal of the kernel is for them a write which reports success and changes
  nothing, unless there is a flush or a seek; errors reported by a write are those of remote hosts, and those of opening
  the file. Theorems of these models which say that a setting has the new value when there is no error and the kernel is
  one which accepts or reports, are about remote hosts in the case of a refusal.
* Model/ASPMCmd.lean: pepctool/_PepcASPM.py 19-113. Parameters: the kernel behind the policy file and the 'l1_aspm'
  files, the kernel version, the host message.
* Model/CStatesCmd.lean: pepctool/_PepcCStates.py 23-161, _PepcSetter.py 300-317 (`set_cstates`), _PepcCommon.py 67-109.
  Parameters: what printing and changing properties does to the rest of the system (`PropsPart`). Not modelled:
  overriding the CPU model, the 'tuned' warning, the message when nothing is printed, YAML.
* Model/HotplugCmd.lean: pepctool/_PepcCPUHotplug.py:20-72, pepctool/_OpTarget.py:199-207,
  pepctool/_PepcCommon.py:38-47. A text without numbers (like ',') and siblings 'all' are refused at once; all texts are
  parsed before anything else. The description of the host (`Info`) is assumed to be right (C72).
* C91: Model/TpmiCmd.lean models _PepcTpmi.py:108-235 on top of Model/Tpmi.lean. Options are taken after splitting; the
  output is the dictionary and the list of reported instances, not text. 'tpmi ls' is not modelled.
* RaplLimits: PackagePowerLimit and Power on top of the MSR model. Assumed of the hardware: one register per package, a
  write changes only bits which differ in the written value (locked or read-only bits allowed), writes are not refused.
  Power and time units are parameters.
* `PropsTarget`: `get_sname()` is a parameter (a field of `PropDesc`), the reading and writing methods of sub-classes
  are parameters with the contracts `Local` and `readCpus`. Dies with uncore properties have their own methods, which
  are not covered here. Line 778 of `_PropsClassBase.py` passes a wrong property name, which is not modelled.
* Model/IdleGov: the three files change only by this object; the kernel stores exactly the governor written or refuses
  it and changes nothing; reading an existing file does not fail.

## Disagreements between the properties and the code

Each one is proved with a concrete witness (`..._counterexample`).

| id | what the code does |
|----|--------------------|
| C02 | `set_bits()` accepts negative values and bit ranges above bit 63, and changes other bits |
| C06 | a transaction reorders writes made to one shared register through different CPUs; with caching disabled the commit fails |
| C09 | MSR 0x1A4 is used with two different scopes, the cache of one goes stale when the other one is written |
| C10 | `remove()` in the global scope raises `KeyError` for an absent name |
| C11, C12 | values with white-space around them read back differently in a transaction and fail to commit; a refused write in a transaction stays in the buffer |
| C20 | module numbers are assumed to be unique over packages |
| C25 | duplicates are removed before ranges are expanded |
| C28 | `_reduce_cpus_ioscope()` drops I/O scope units of which only a part is in the target |
| C30, C59 | MSR mechanism with package control: the valid bit is set on CPUs that were not requested, so min may exceed max |
| C32 | "mim_freq" typo: setting max first, then min fails; also for CPUs with limits on both sides of the new ones |
| C33 | MSR mechanism with package control: restoring the limits of some CPUs changes the limits of CPUs which are not in the file and depend on the package register | `C33_msr_others_counterexample` |
| C33 | MSR mechanism: with a min. limit above the hardware max. frequency and a max. limit below the saved min. limit, restoring fails | `C33_msr_implausible_counterexample` |
| C37 | a boolean feature with aliases crashes for `True`/`False` (no such table exists) |
| C40 | the power limit is rounded down after it was compared with the lower bound; NaN ends in `ValueError` |
| C41 | with the mechanism order "msr, sysfs" a policy name is refused unless CPU 0 is the first CPU; "0x10" ends in `ValueError` |
| C42 | a CPU is yielded twice when the first mechanism fails in the middle |
| C43 | CPUs with one idle state get none; "all" on hybrid systems; caching disabled; only some CPUs with idle states |
| C44 | "all" on hybrid systems; names are checked while the CPUs are processed |
| C47 | an empty candidate is never returned and hides the ones after it |
| C48 | values wider than the bit field spill into the next field |
| C51 | the instances of the first device are used for all devices |
| C52 | module sibling indexes with repeated module numbers |
| C53 | the result of a non-strict call is cached and returned to strict callers |
| C58 | negative durations do not parse back to the same number; durations of a day or longer are refused |
| C61 | EPP/EPB shared by several CPUs |
| C62 | targets are widened when sibling indexes are used |
| C64 | of several directories (clusters) of one domain only the last one is used |
| C65 | the functions for CPUs do not unlock; a failure while unlocking changes other dies |
| C66 | devices of different packages requested along with their packages are refused |
| C69 | a unit with a prefix loses it for values from 1 to 999 (not reachable from the tool) |
| C72 | a die whose CPUs are all offline when dies are first requested is cached as an I/O die for the lifetime of the object; the branch at `_CPUInfoBase.py:260` is not reachable |
| C73 | a last line without a line end is never returned; if a process closes its streams and does not exit within the time-out, its exit code is never returned; where lines with carriage returns are split depends on the chunks |
| C74 | if the output does not end with a new line, the exit code is recognised or not depending on the chunks; standard error output arriving late makes `run()` time out or is returned as output of the next command |
| C77 | a C-state that is enabled on some CPUs and disabled on others: only the first status is saved as "on"/"off", restoring raises an error and leaves the C-states after it as they are; with the package C-state limit locked on some CPUs only, saving crashes with `AttributeError` |
| C78 | if package 0 has one die, messages about dies name only the packages, also if other packages have more dies; an empty list is printed as "()" |
| C79 | if `base_frequency` is missing for one CPU, `bios_limit` is used for all CPUs after it, although they have `base_frequency`: whether the base frequency of a CPU can be read depends on the other CPUs of the request |
| C79 | if the frequency file of ACPI CPPC can be read for the first CPUs only, these CPUs are reported twice, with the frequency of the file and with the scaled base frequency |
| C80 | the list of acceptable frequencies with the `intel_pstate` driver is made from the current min. and max. frequency, so that frequencies which can be set disappear from it when the limits are narrowed |
| C80 | on processors with `MSR_FSB_FREQ`, `get_prop_cpus("bus_clock", mnames=("doc", "msr"))` raises `ErrorTryAnotherMechanism`: only setters try the next mechanism then; `BClock.get_bclk()` (not used anywhere) without an `FSBFreq` object always raises `TypeError` (missing argument) |
| C81 | C81: with caching (the default) and CPU 0 offline, 'get_idle_driver()', 'get_current_governor()', 'get_available_governors()' and 'set_current_governor()' fail with 'Error', because the cached items belong to CPU 0 (CPUIdle.py:354, 368) and '_PerCPUCache.add()' and 'remove()' refuse an offline CPU. |
| C83 | `PROPS` of the module is shared: `_set_sname()` stores the scope found by one object there, and objects created later (for the same or for another host) take it over, with the I/O scope equal to the scope (_PropsClassBase.py:1266-1273, CStates.py:291). |
| C84 | With the second object of a process `set_prop_packages()` writes the package C-state limit for one core per package only and reports success (follows from C83). |
| C85 | `pepc topology info --columns X` prints the "Hybrid" column on hybrid systems even though X does not list it (_PepcTopology.py:158); `C85_columns_counterexample`. |
| C85 | I/O dies are shown as "E-core" in the "Hybrid" column (_PepcTopology.py:169-172); `C85_io_kind_counterexample`. |
| C86 | `--packages 0 --core-siblings 7` targets no CPU, but a property with package scope is set for package 0 |
| C86 | after `get_packages(strict=False)` the cached result makes a strict request succeed for a target with a part of a package |
| C87 | if the first CPU refuses the only mechanism, nothing is shown for the other CPUs even if they support it |
| C87 | a property with die scope fails with `IndexError` if an I/O die is targeted |
| C88 | setting ppl1/ppl2 is not verified (PackagePowerLimit.py:228): on a locked register it reports success and the cache shows the new limit |
| C88 | after such a limit, setting a switch reports a verification failure although the switch was set |
| C88 | when verification fails in a transaction, the packages which were not verified yet stay in the cache with the value which was not taken (MSR.py:169-236) |
| C89 | bit fields outside of the register and overlapping bit fields are accepted (Tpmi.py:300-339) |
| C89 | negative offsets and overlapping registers are accepted (Tpmi.py:283-290) |
| C89 | bits without quotes are a YAML 1.1 sexagesimal number and cause an AttributeError, negative bit numbers a ValueError, instead of the message about a bad spec file (Tpmi.py:319-336) |
| C90 | a spec file of the user's directory (first) does not override the standard one (last) as a whole: feature ID and path are those of the last file, registers those of the first (Tpmi.py:352-357, 431) |
| C90 | features with a '.yaml' spec file are known, but '_get_fdict()' only looks for '.yml' (Tpmi.py:353, 409) |
| C90 | a spec file which ends after a key causes an AttributeError, which is not caught, instead of being skipped (Tpmi.py:190-211, 416-425) |
| C90 | unknown feature IDs are listed once per device (Tpmi.py:460-463) |
| C90 | of two spec files with the same feature ID only one is ever used, silently (Tpmi.py:438-440) |
| C91 | Without '--instances', the instances of the first device are used for all devices: others are silently not written or read, or the command fails half way | C91_instances_counterexample |
| C91 | 'pepc tpmi write' accepts a value wider than the bit field and changes other bits of the register | C91_field_counterexample |
| C91 | 'pepc tpmi write' with an unknown feature name crashes with KeyError | C91_unknown_counterexample |
| C92 | The comment in pepctool/_PepcCPUHotplug.py:60-63 says that a CPU without hotplug support is not an error if it is specified indirectly via '--packages 0'. With '--packages 0 --cpus 2' it is: the command fails after having offlined CPU 2 (`C92_indirect_counterexample`). |
| C92 | 'cpu-hotplug offline --cpus 1' is an error if CPU 1 is offline already, because the target options accept online CPUs only, although CPUOnline.offline() skips such CPUs (`C92_repeat_counterexample`). |
| C93 | The names printed for the properties 'ppl1' and 'ppl1_enable' are the same, 'RAPL PPL1' (pepclibs/Power.py:35 and 43), likewise for 'ppl2': a line like 'RAPL PPL1: not supported for package 0' does not tell which of them it is about (`C93_name_counterexample`). |
| C94 | The notes (latency, residency, description) are printed without CPU numbers: when they differ between CPUs it cannot be told which CPU has which (`C94_notes_counterexample`). |
| C95 | `cstates config --mechanisms msr --disable C6` changes C-states through sysfs: `set_cstates()` ignores `mnames`. |
| C95 | `cstates config --disable C6 --enable NOPE` fails after C6 was disabled: options are obeyed one by one. |
| C95 | `cstates config --disable ,` succeeds and prints 'This system does not support C-states' on a system with C-states. |
| C96 | `aspm config --policy X --l1-aspm on` without `--device` fails after the policy was changed: the device is checked late. |
| C96 | `aspm config --l1-aspm on` is not read back: with a kernel which ignores the write, the command reports a change. |
| C97 | `pstates config --max-freq X --min-freq Y` fails with a frequency order error although `--min-freq Y --max-freq X` works: the retry in the other order looks for "mim_freq" (`pname.replace("max", "mim")`, _PepcSetter.py:255). |
| C98 | `pmqos config --latency-limit=` (an empty value, or only blanks) is not an error: `parse_human()` returns 0 for an empty text, and the limit of all targeted CPUs is removed (Human.py:496-508). |
| C98 | What `pmqos` prints is not exact: two decimals after scaling, so 1233 and 1234 us both are "1.23ms", and above 100 seconds the fraction is dropped ("150.9s" is printed as "150s", because `Trivial.is_int()` is true for every finite `float`). |
| C99 | The 'restore' commands for `pmqos` and `pstates` give no shared `SysfsIO` to the `PMQoS`/`PStates` object (_PepcPMQoS.py:163-191, _PepcPStates.py:166-197), although the setter starts and commits a transaction on one. Sysfs writes are done at once there, so a restore which fails half-way leaves the earlier entries written; all or nothing holds only for what goes through the shared MSR object. |
| C99 | A package-scope property saved for a part of the CPUs of a package cannot be restored from that file: the setter refuses CPUs which are not all of the package (`C99_package_counterexample`). |
| C99 | "restored to" is printed for every property before the commit, which may still fail (`C99_told_counterexample`). |
| C100 | A failing 'pmqos restore' is not undone: writes are not part of the transaction, limits of earlier entries stay changed (`C100_atomic_counterexample`). |
| C100 | The kernel shows "n/a" in 'pm_qos_resume_latency_us' for the tightest limit; reading it is an error, so 'info' and 'save' fail for all the CPUs if one of them has it (`C100_na_counterexample`). |
| C101 | A valid request for both uncore frequencies is refused if the max. one comes first and is below the current min. one of a die (`C101_max_first_counterexample`, the misspelt `mim_freq` of C32), or if the dies have current frequencies on both sides of the new ones (`C101_mixed_counterexample`). |
| C102 | Options are paired with values by removing the first argument which is equal to the value: `-U root -K key -H root` after the sub-command is refused ('value required for argument -U'), `-T a -K b -H a -U b` silently swaps the values of `-T` and `-K`, and `-U -H a b` is accepted (`C102_same_value_counterexample`, `C102_swapped_counterexample`, `C102_nested_counterexample`). |
| C102 | A dataset together with a remote host is refused only if at least one option is after the sub-command; otherwise the host is ignored (`C102_conflict_counterexample`). |
| C102 | An option may be repeated before the sub-command (the last one is used) but not after it (`C102_twice_counterexample`). |
| C102 | `pepc pmqos --list-mechanisms` fails with 'BUG: unknown function' (`C102_mechanisms`). |
| C103 | Writing to an emulated read-only file raises `TypeError` instead of `Error` (the replacement of `write()` has no `self` argument): `C103_readonly_counterexample`. |
| C103 | Emulated files outside of /sys are not truncated on write: `C103_proc_counterexample`. An ASPM policy name which is a part of another one gets two active policies: `C103_aspm_counterexample`. |
| C104 | UncoreRatioLimit sets only the functional scope, the I/O scope stays None: the MSR class gets None as the scope when the feature is accessed (the tool itself does not use this class for access). |
| C105 | `Tpmi.close()` runs "unmount", which does not exist (the program is umount), and the failure is not noticed: debugfs stays mounted. The 'pepc tpmi' commands do not call `close()` at all. |
| C105 | `wait_for_a_file(timeout=1)` with the default interval of 1 second checks the file exactly once; a device file which appears a moment after modprobe returns is reported as missing, and the driver stays loaded because the object was never created. |
| C105 | An MSR object which found the device file does not know about the object which loaded the driver: if that one is closed first, the device file goes away. |
| C105 | On kernels without module unloading the usage count in /proc/modules is "-": `int()` raises ValueError. |
| C106 | The handler compares the value of the sysfs file (kHz) with the list of frequencies and the base frequency (Hz): neither explanation is ever given on a real system. | `C106_hints_counterexample` |
| C106 | If driver, mode or governor cannot be read, that exception replaces the one about EPP; the integer 0 is explained as forbidden. | `C106_epp_lost_counterexample`, `C106_epp_zero_counterexample` |
| C106 | Setting the 'intel_pstate' mode to "off" when it is off is accepted by `set_intel_pstate_mode()`, but the commit of a transaction fails. | `C106_mode_counterexample` |
| C107 | A file which includes itself as 'sub/../a.yml' is loaded again and again: the paths are compared without resolving '..'. | `C107_circular_counterexample` |
| C107 | The restore commands pass the path as a text (or standard input), which has no 'parent' attribute: any relative include statement is an 'AttributeError'. | `C107_relative_counterexample`, `C107_relative_general` |
| C107 | A key which is in a file twice with an include statement in between does not have its last value. | `C107_key_counterexample` |
| C107 | Include statements in nested mappings are renamed to 'include_0' and not processed. | `C107_nested_counterexample` |
| C107 | A YAML file with a list at the top level is an 'AttributeError'. | `C107_list_counterexample` |
| C108 | `_ls_long()` (pepctool/_PepcTpmi.py:39-43) changes the prefixes in the loop over the addresses, so the second device of a package is indented deeper than the first one. | `C108_indent_counterexample` |
| C109 | 'lscpu' runs with the locale of the user, and the code looks for English labels: with a translated output, there is a `KeyError` traceback instead of an error message. | `C109_name_counterexample`, `C109_german_counterexample` |
| C109 | Whether a value is a number is decided with any base, but it is converted in base 10: the value '0x7' is a `ValueError`. | `C109_hex_counterexample` |
| C110 | `stop(save=True)` of a unit which is not active saves that it was stopped by this call, so `restore()` starts a unit which was not active. | `C110_unchanged_counterexample` |
| C110 | `restore()` does not forget what was saved, so an object which is used again restores the state of the first use. | `C110_again_counterexample` |
| C110 | `stop_ntp()` called twice, and `stop_timers()` which fails for one timer: services stay stopped. | `C110_ntp_twice_counterexample`, `C110_timers_counterexample` |
| C111 | `find_project_helper()` reads the variable of the project on the local host, but does not use it. | `C111_helper_counterexample` |
| C111 | '-D all' does not use the datasets in the directory of the `PEPC_DATA_PATH` variable, although they can be used by name. | `C111_all_counterexample` |
| C111 | 'pepc pmqos' with '-D' always fails with 'BUG: No modules specified'. | `C111_pmqos_counterexample` |
| C112 | A blank command raises IndexError in `_command_not_found()`. | `C112_blank_counterexample` |
| C112 | /usr/lib/os-release takes precedence over /etc/os-release, os-release(5) says the opposite. | `C112_precedence_counterexample` |
| C112 | Single-quoted values and values with '=' of os-release files are not understood. | `C112_quotes_counterexample` |
| C113 | `CPUFreqMSR` which was not given an MSR object creates one and never closes it: `_msr` is not in the list of `close()`. | `C113_leak_counterexample` |
| C113 | The documentation of `ClassHelpers.close()` says that attributes may not exist; for an attribute of `unref_attrs` which does not exist, the warning uses a variable of the other loop: `UnboundLocalError`. | `C113_half_counterexample` |
| C114 | `is_exe()` of a directory with permission to enter it is False locally and True remotely. | `C114_exe_counterexample` |
| C114 | `rmtree()` of a symbolic link to a directory fails locally and removes the link remotely. | `C114_link_counterexample` |
| C114 | `mkdir()` and `mkfifo()` at a dangling symbolic link: exists locally, an unspecific error remotely, even with `exist_ok`. | `C114_dangling_counterexample` |
| C114 | `lsdir()` of a remote directory with a space in a name fails. | `C114_space_counterexample` |
| C114 | Paths with single quotes break the remote commands. | `C114_quote_counterexample` |
| C114 | `rmtree()` below a regular file fails locally and succeeds remotely. | `C114_notdir_counterexample` |
| C114 | `mkdir(exist_ok=True)` succeeds where a regular file is. | `C114_mkdir_file_counterexample` |
| C115 | Methods `unlink()`, `rmtree()`, `mkfifo()`, `get_mtime()` of an emulated system are about the files of the host which runs the emulation. | `C115_paths_counterexample`, `C115_host_counterexample` |
| C115 | Only the first path of a command is moved to the base directory; the others are of the host. | `C115_two_paths_counterexample` |
| C115 | A command with a path which is not emulated, but exists on the host, is run, contrary to the comment. | `C115_real_path_counterexample` |
| C115 | An empty string in quotes ends the search for a path. | `C115_quotes_counterexample` |
| C115 | Loading "CPUInfo" loads "CPUOnline" again, which undoes CPU hotplug. | `C115_reset_counterexample` |
| C115 | Read-only files can be read but `exists()` and `is_file()` say they are not there. | `C115_exists_counterexample` |
| C115 | A register pair without a separator is a ValueError: the length check is of the wrong list. | `C115_msr_bad_counterexample` |
| C116 | Different messages from the same line of the code: `warn_once()` remembers the place, not the message, and later ones are never printed. | `C116_warn_once_counterexample` |
| C116 | `configure(colored=False)` after a colored configuration: the colors stay. | `C116_reconfigure_counterexample` |
| C116 | The traceback printed by `error_out()` has escape sequences whenever colorama is installed, colors or not. | `C116_traceback_counterexample` |
| C117 | The warning about wrong frequencies on hybrid hosts without E-cores and a kernel before 6.5 is never given: it returns if there are E-cores *or* P-cores, and there always are some. Besides, the arguments of its message are sets. | `C117_never_warns`, `C117_warning_counterexample` |
| C118 | The message about one package says 'CPU N' with the number of the package. | `C118_package_counterexample` |
| C118 | With a package whose list of dies is empty, `get_prop_dies()` of an unsupported property ends with IndexError instead of yielding None. Also, by reading: `dies="all"` (documented) ends with TypeError, the caller's dictionary is modified, and line 778 passes the package as the property name; these are not modelled. | `C118_empty_counterexample` |
| C119 | "this lock makes sure we always run exactly one process in the interactive shell" (SSHProcessManager.py:1142-1143): if a command has ended by the time its PID is read, `_read_pid()` clears the flag and `wait()` clears it once more, while another thread may have set it. Two commands then run in the shell at once. | `C119_threads_counterexample` |
| C119 | A second `run_async()` with `intsh=True` returns the same object as the first one, so waiting for the first process gives the outcome of the second command. | `C119_async_counterexample` |
| C119 | If the PID of a command which was sent to the interactive shell cannot be read, the command is run once more in a new session. | `C119_twice_counterexample` |
| C119 | After a failure the flag is cleared and the lock is released before the shell is told to exit and forgotten, so another thread can send its command to the shell which exits. | `C119_dropped_counterexample` |
| C120 | Setting a limit to "Pm" where ACPI CPPC has `lowest_freq` for the first CPU but not for all: the first CPU is set twice, the last one is not set, success is reported. | `C120_pm_counterexample` |
| C120 | The docstring of `ErrorFreqRange` says that another mechanism may have another range. The range always comes from sysfs, so trying another mechanism never helps, and the final error is "not supported". | `C120_out_of_range` |
| C120 | The check in `_get_numeric_cpu_freq()` which should prevent mixing values does not see a single value (`idx` is 0 then too). It cannot happen with the present reader. | `C120_guard_counterexample` |
| C121 | `run(mix_output=True)` in the interactive shell calls `set_combine_stderr(True)` on the channel of the shell and nothing resets it: all later commands have their stderr in stdout, and missing programs are not recognised any more. | `C121_mix_counterexample` |
| C121 | `run(mix_output=True)` on a remote host combines the streams after the command was started: lines received before stay in stderr, although it is documented to be empty. | `C121_early_counterexample` |
| C121 | With `mix_output` a missing program is not reported as such, because the rule wants the line on stderr. | `C121_mixed_missing_counterexample` |
| C121 | A program which ends with exit code 127 and one line on stderr is reported as not found. | `C121_found_counterexample` |
| C121 | The docstring of `run()` says the default time-out is 4 hours, it is 24 hours. | `C121_timeout` |
| C122 | A host whose name starts with "emulation" is never connected to, an emulated host is used instead. User, key and time-out are dropped, although the docstring says that they have to be `None`. | `C122_emulation_counterexample` |
| C122 | `_cfg_lookup()` restores `$USER` with `os.environ["USER"] = old_username`: when it is not set this is a `TypeError`, so that no remote host can be used, and `$USER` stays set to the remote user. | `C122_no_user_counterexample` |
| C122 | An "Include" in an SSH configuration file which matches no files: `_cfg_lookup()` takes the empty list for "use the default files" and calls itself until `RecursionError`. | `C122_empty_include_counterexample` |
| C122 | An "Include" in the first SSH configuration file hides the second one, usually the one of the user. | `C122_include_counterexample` |
| C122 | `--timeout` with something that is not a number ends in `ValueError` with a traceback. | `C122_bad_timeout_counterexample` |
| C122 | On the command line `-U` is ignored for "localhost", although `get_pman()` has an SSH connection to the local host for that. | `C122_cli_local` |
| C123 | `EPP` and `EPB` write their sysfs files directly, while all other sysfs writes of 'pepc pstates config' wait for the end of the transaction: `--governor powersave --epp balance_power` fails with "device busy" on a system with the "performance" governor, and the governor is not changed either. | `C123_epp_counterexample` |
| C123 | The MSR transaction is committed before the sysfs one: the governor given before an EPP value for the MSR is changed after it. | `C123_msr_counterexample` |
| C124 | 'cstates save -o -' creates a file with the name '-' while '-' is the standard output for the other 'save' commands and the standard input for 'cstates restore'. | `C124_dash_counterexample` |
| C124 | A 'save' command empties the file before it checks the target: a typing error in '--cpus' loses the saved settings, and restoring from the empty file succeeds. | `C124_lost_counterexample` |
| C124 | A failing 'cstates save' leaves a file with the C-states only, from which 'restore' succeeds. | `C124_half_counterexample` |
| C124 | 'cstates save' on a host with C-states but without writable properties writes a file which is not valid YAML. | `C124_part_missing_counterexample` |
| C125 | Uncore frequencies are writable and can be read by CPU, but `set_prop_cpus()` always refuses them, with the text "BUG: unsupported property '{pname}'" (the name is not filled in). | `C125_uncore_counterexample` |
| C126 | On the local host `which()` returns a file of the current directory before the programs in `PATH`; the shell does not run it. | `C126_cwd_counterexample` |
| C126 | An empty entry of `PATH` is taken for the root directory instead of the current one. | `C126_empty_counterexample` |
| C126 | A path with a slash is looked up in the directories of `PATH`. | `C126_slash_counterexample` |
| C126 | Without `PATH`, `which(must_find=False)` raises `KeyError`. | `C126_nopath_counterexample` |
| C126 | On a remote host without `which`, where the program `command` behaves like the one of dash (exit code 127, no output), `which(must_find=False)` raises an error for a missing program. | `C126_dash_counterexample` |
| C126 | The look-up commands are run with `exec`, which needs programs: on a remote host without programs named `which` and `command`, `which()` raises `ErrorNotFound` for every program, also with `must_find=False`; the built-in `command -v` of the shell is never used. | `C126_exec_counterexample` |
| C126 | If `which` goes away, `which(must_find=False)` raises `ErrorNotFound`. | `C126_gone_counterexample` |
| C127 | Because of `exec`, only the first command of a list like `a && b` is run, on remote hosts and on the local one. | `C127_list_counterexample` |
| C127 | The directory of a remote command is in double quotes: a name with quotes or dollar signs is interpreted by the shell. | `C127_cwd_counterexample` |
| C128 | An option given twice keeps its first place: `--enable C1 --disable C1 --enable C1` disables C1 last. | `C128_repeated_counterexample` |
| C128 | An abbreviation which `config` accepts can be ambiguous for `info` (`--min-u`). | `C128_abbreviation_counterexample` |
| C129 | On the local host, a value which the kernel refuses is not an error: writing to the file fails in `close()`, which prints a warning and goes on. | `C129_refused_counterexample` |
| C129 | On the local host, `SysfsIO.write()` of a refused value ends without an error, and the refused value is read back from the cache. | `C129_cached_counterexample` |
| C129 | The workaround for kernels which refuse the current EPP value has no effect on the local host. | `C129_epp_counterexample` |
| C129 | An EPP value which was written before and is now refused is not an error on the local host. | `C129_epp_again_counterexample` |
| C129 | Exceptions of iterations over files are not translated to `Error`. | `C129_iteration_counterexample` |
| C130 | After the error about two caches with one name, `get_cache_info()` returns the caches read so far as if nothing had happened. | `C130_retry_counterexample` |
| C130 | `get_cache_info()` tests values with `is_int()`, which accepts "0x10", and converts them with `int()`, which raises `ValueError`. | `C130_hex_counterexample` |
| C130 | Output of `lscpu` without the list of caches, or a cache without a name, is a `KeyError`, not an `Error`. | `C130_keyerror_counterexample` |
| C131 | `get_kver_bin()` takes the last word after " version ", which need not be the version of the kernel. | `C131_last_counterexample` |
| C131 | `get_kver_bin()` does not find a version at the end of the output. | `C131_end_counterexample` |

## Not modelled

Starting processes and SSH sessions, the argparse library (the command line options are modelled where C102 and other
properties need them), logging, printing of tables, the YAML library, creating and filling the emulation directory from
a dataset, the code for virtual machines and for AMD processors except where a property needs it.
