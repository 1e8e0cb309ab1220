{"claims": [
{"property": "C01", "status": "proved", "theorems": ["Verif.Bits.C01_get_set_bits", "Verif.Bits.C01_set_bits_accepts"], "note": "all registers, all accepted ranges, all non-negative values and ALL_BITS_1"},
{"property": "C02", "status": "partial", "theorems": ["Verif.Bits.C02_set_bits_confined_partial", "Verif.Bits.C02_set_bits_refuses", "Verif.Bits.C02_set_bits_counterexample_negative", "Verif.Bits.C02_set_bits_counterexample_range"], "note": "false of the code for negative values and for ranges above bit 63 (counterexamples proved)"},
{"property": "C03", "status": "proved", "theorems": ["Verif.Bits.C03_disjoint_fields"], "note": ""},
{"property": "C04", "status": "proved", "theorems": ["Verif.MSR.C04_cached_reads_coherent"], "note": "Any history of read/read_bits/write/write_bits outside of transactions, any topology, any I/O failure pattern. Registers ignoring writes are covered when writes to them are verified."},
{"property": "C05", "status": "proved", "theorems": ["Verif.MSR.C05_write_exact"], "note": ""},
{"property": "C06", "status": "partial", "theorems": ["Verif.MSR.C06_transaction_equals_immediate_partial", "Verif.MSR.C06_transaction_order_counterexample", "Verif.MSR.C06_transaction_nocache_counterexample"], "note": "False of the code when one shared register is written through different CPUs, and when caching is disabled; proved when every write names the same first CPU per sharing unit."},
{"property": "C07", "status": "proved", "theorems": ["Verif.MSR.C07_no_write_before_flush", "Verif.MSR.C07_commit_writes_once"], "note": ""},
{"property": "C08", "status": "proved", "theorems": ["Verif.MSR.C08_write_bits_rmw"], "note": ""},
{"property": "C09", "status": "partial", "theorems": ["Verif.MSR.C09_mixed_scopes_partial", "Verif.MSR.C09_mixed_scopes_counterexample"], "note": "False of the code (MSR 0x1A4 is used with module and core I/O scopes); proved for one scope per register."},
{"property": "C10", "status": "partial", "theorems": ["Verif.C10_cache_add", "Verif.C10_cache_disabled", "Verif.C10_cache_remove_partial", "Verif.C10_cache_remove_counterexample"], "note": "remove() in the global scope raises KeyError for a name that is not cached."},
{"property": "C100", "status": "partial", "theorems": ["Verif.PMQoSRestore.C100_frame_partial", "Verif.PMQoSRestore.C100_restore_partial", "Verif.PMQoSRestore.C100_saved", "Verif.PMQoSRestore.C100_saved_frame", "Verif.PMQoSRestore.C100_safe", "Verif.PMQoSRestore.C100_works", "Verif.PMQoSRestore.C100_atomic_counterexample", "Verif.PMQoSRestore.C100_na_counterexample"], "note": "C99 for the PM QoS class. Missing: files written by hand with entries for packages or dies. Two counterexamples: a failing restore leaves the limits of earlier entries changed, and limits cannot be saved when the kernel shows n/a for a CPU."},
{"property": "C101", "status": "partial", "theorems": ["Verif.UncoreProps.C101_set", "Verif.UncoreProps.C101_refused", "Verif.UncoreProps.C101_succeeds", "Verif.UncoreProps.C101_read_back", "Verif.UncoreProps.C101_config_min_first_partial", "Verif.UncoreProps.C101_config_max_first_partial", "Verif.UncoreProps.C101_restore", "Verif.UncoreProps.C101_in_order", "Verif.UncoreProps.C101_max_first_counterexample", "Verif.UncoreProps.C101_mixed_counterexample"], "note": "A valid request for both frequencies is refused if the max. frequency comes first and is below the current min. frequency, or if dies have current frequencies on both sides of the new ones (counterexamples). Everything else holds for all machines, states and histories."},
{"property": "C102", "status": "partial", "theorems": ["Verif.CmdLine.C102_global_partial", "Verif.CmdLine.C102_before", "Verif.CmdLine.C102_frame", "Verif.CmdLine.C102_nothing_ignored", "Verif.CmdLine.C102_unknown_refused", "Verif.CmdLine.C102_odd_refused", "Verif.CmdLine.C102_twice_refused", "Verif.CmdLine.C102_place", "Verif.CmdLine.C102_remote_partial", "Verif.CmdLine.C102_never_elsewhere", "Verif.CmdLine.C102_position_partial", "Verif.CmdLine.C102_mechanisms", "Verif.CmdLine.C102_ordered", "Verif.CmdLine.C102_ordered_exact", "Verif.CmdLine.C102_reorder", "Verif.CmdLine.C102_reorder_perm", "Verif.CmdLine.C102_same_value_counterexample", "Verif.CmdLine.C102_swapped_counterexample", "Verif.CmdLine.C102_nested_counterexample", "Verif.CmdLine.C102_twice_counterexample", "Verif.CmdLine.C102_conflict_counterexample"], "note": "argparse itself is a parameter (its namespace and the unknown arguments). Partial: two options after the sub-command with the same value are not paired correctly by the code (refused, or even swapped, see the counterexamples); a repeated option is refused after the sub-command and accepted before it; a dataset for a remote host is only refused if some option is after the sub-command."},
{"property": "C103", "status": "partial", "theorems": ["Verif.Emul.C103_files", "Verif.Emul.C103_sysfs", "Verif.Emul.C103_epb", "Verif.Emul.C103_aspm_partial", "Verif.Emul.C103_plain_files", "Verif.Emul.C103_msr", "Verif.Emul.C103_msr_initial", "Verif.Emul.C103_msr_hardware", "Verif.Emul.C103_online", "Verif.Emul.C103_hotplug", "Verif.Emul.C103_aspm_counterexample", "Verif.Emul.C103_readonly_counterexample", "Verif.Emul.C103_proc_counterexample"], "note": "Missing: an ASPM policy whose name is a part of another policy name (C103_aspm_counterexample), files below /proc (C103_proc_counterexample). Parsing of the dataset files is in C115."},
{"property": "C104", "status": "partial", "theorems": ["Verif.MSRFeatures.C104_supported", "Verif.MSRFeatures.C104_refused", "Verif.MSRFeatures.C104_created", "Verif.MSRFeatures.C104_disjoint", "Verif.MSRFeatures.C104_addresses", "Verif.MSRFeatures.C104_tables", "Verif.MSRFeatures.C104_independent", "Verif.MSRFeatures.C104_numbers", "Verif.MSRFeatures.C104_names", "Verif.MSRFeatures.C104_read_only", "Verif.MSRFeatures.C104_scopes_partial", "Verif.MSRFeatures.C104_scopes_counterexample"], "note": "The features of MSR_UNCORE_RATIO_LIMIT have no I/O scope (C104_scopes_counterexample); everything else is proved in full."},
{"property": "C105", "status": "partial", "theorems": ["Verif.Drivers.C105_is_loaded", "Verif.Drivers.C105_usage_counterexample", "Verif.Drivers.C105_wait", "Verif.Drivers.C105_wait_found_partial", "Verif.Drivers.C105_wait_counterexample", "Verif.Drivers.C105_untouched", "Verif.Drivers.C105_restored", "Verif.Drivers.C105_uncore_restored", "Verif.Drivers.C105_uncore_driver", "Verif.Drivers.C105_failed", "Verif.Drivers.C105_failed_counterexample", "Verif.Drivers.C105_commands", "Verif.Drivers.C105_sessions", "Verif.Drivers.C105_available_partial", "Verif.Drivers.C105_available_counterexample", "Verif.Drivers.C105_debugfs", "Verif.Drivers.C105_debugfs_counterexample"], "note": "proved: the module list is restored after successful creation and closing, for any order of several objects, nothing is touched if the device is there; false of the code: a constructor which fails after loading the driver leaves it loaded, the wait of one second checks the file only once, debugfs is never unmounted (the command 'unmount' does not exist), an object whose driver was loaded by another object loses it when that one is closed"},
{"property": "C106", "status": "partial", "theorems": ["Verif.SetErrors.C106_verified", "Verif.SetErrors.C106_first_failure", "Verif.SetErrors.C106_hints_partial", "Verif.SetErrors.C106_hints_counterexample", "Verif.SetErrors.C106_transaction", "Verif.SetErrors.C106_epp", "Verif.SetErrors.C106_epp_lost_counterexample", "Verif.SetErrors.C106_epp_zero_counterexample", "Verif.SetErrors.C106_mode", "Verif.SetErrors.C106_mode_counterexample"], "note": "Success, the failing CPU, the class of the exception and the condition of the EPP explanation are proved in full. The explanations for frequencies are only sound: kHz values are compared with Hz values, so that they are never given on real systems (proved in general). In a transaction nothing is explained, and switching off a driver which is off fails."},
{"property": "C107", "status": "partial", "theorems": ["Verif.YamlLoad.C107_includes", "Verif.YamlLoad.C107_twice", "Verif.YamlLoad.C107_total", "Verif.YamlLoad.C107_circular_counterexample", "Verif.YamlLoad.C107_relative_counterexample", "Verif.YamlLoad.C107_relative_general", "Verif.YamlLoad.C107_key_counterexample", "Verif.YamlLoad.C107_nested_counterexample", "Verif.YamlLoad.C107_list_counterexample"], "note": "Proved as an equivalence for files without repeated keys; loading ends if finitely many paths are named. False otherwise: a circular include with '..' in the path is never recognised, a relative include fails with a Python exception if the first file is given as a text (all restore commands) or on standard input, repeated keys around an include statement are taken out of order, nested include statements are renamed and not processed, a file with a list is a Python exception."},
{"property": "C108", "status": "partial", "theorems": ["Verif.Tpmi.Text.C108_read", "Verif.Tpmi.Text.C108_field", "Verif.Tpmi.Text.C108_ls", "Verif.Tpmi.Text.C108_indent_partial", "Verif.Tpmi.Text.C108_indent_counterexample", "Verif.Tpmi.Text.C108_ls_fails"], "note": "The contents of the text are right in every execution. 'tpmi ls -l' is proved for features whose devices have the same instances (C51). The depth of the lines is right with one device per package; a second device of a package is printed deeper, as if it belonged to the first one (counterexample)."},
{"property": "C109", "status": "partial", "theorems": ["Verif.CPUIdent.C109_value", "Verif.CPUIdent.C109_ok", "Verif.CPUIdent.C109_basefreq", "Verif.CPUIdent.C109_flags", "Verif.CPUIdent.C109_descr", "Verif.CPUIdent.C109_override", "Verif.CPUIdent.C109_override_bad", "Verif.CPUIdent.C109_name_counterexample", "Verif.CPUIdent.C109_german_counterexample", "Verif.CPUIdent.C109_hex_counterexample", "Verif.CPUIdent.C109_lower"], "note": "Proved where the values are decimal numbers or no numbers at all. False when there is no 'Model name:' line, for example because the output of lscpu is translated, and for values such as '0x7': both end with an exception which is not an exception of the project."},
{"property": "C11", "status": "partial", "theorems": ["Verif.SysfsIO.C11_read_your_writes_partial", "Verif.SysfsIO.C11_white_space_counterexample", "Verif.SysfsIO.C11_refused_write_counterexample"], "note": "Proved for histories where no write/flush/commit fails inside a transaction and up to white-space around written values; both conditions are needed, see the counterexamples."},
{"property": "C110", "status": "partial", "theorems": ["Verif.Systemctl.C110_action", "Verif.Systemctl.C110_restore_partial", "Verif.Systemctl.C110_ntp", "Verif.Systemctl.C110_timers", "Verif.Systemctl.C110_tuned", "Verif.Systemctl.C110_unchanged_counterexample", "Verif.Systemctl.C110_again_counterexample", "Verif.Systemctl.C110_ntp_twice_counterexample", "Verif.Systemctl.C110_timers_counterexample"], "note": "restore() is proved for units whose state was changed by the call which saved them, for a new object. False for a unit which was stopped already (it is started), for an object which is used again, for two calls of stop_ntp(), and for a stop_timers() which fails in the middle."},
{"property": "C111", "status": "partial", "theorems": ["Verif.ProjectFiles.C111_search", "Verif.ProjectFiles.C111_find", "Verif.ProjectFiles.C111_helper_partial", "Verif.ProjectFiles.C111_all", "Verif.ProjectFiles.C111_one", "Verif.ProjectFiles.C111_stop", "Verif.ProjectFiles.C111_modules", "Verif.ProjectFiles.C111_pmqos_counterexample", "Verif.ProjectFiles.C111_helper_counterexample", "Verif.ProjectFiles.C111_all_counterexample", "Verif.ProjectFiles.C111_envar"], "note": "Places of data and single datasets are proved in full. False for helper programs and the variable of the local host (it is ignored), for '-D all' and datasets in the directory of the variable (they are not used), and for 'pepc pmqos' with '-D' (it always fails)."},
{"property": "C112", "status": "partial", "theorems": ["Verif.ToolChecker.C112_os", "Verif.ToolChecker.C112_quiet", "Verif.ToolChecker.C112_bad_lines", "Verif.ToolChecker.C112_other_exceptions", "Verif.ToolChecker.C112_given_name", "Verif.ToolChecker.C112_no_os", "Verif.ToolChecker.C112_package", "Verif.ToolChecker.C112_package_host", "Verif.ToolChecker.C112_calls", "Verif.ToolChecker.C112_check_found", "Verif.ToolChecker.C112_check_missing", "Verif.ToolChecker.C112_message", "Verif.ToolChecker.C112_always_partial", "Verif.ToolChecker.C112_blank_counterexample", "Verif.ToolChecker.C112_precedence_counterexample", "Verif.ToolChecker.C112_quotes_counterexample"], "note": "Full claim for commands which have a program; false of the code for a blank command (IndexError), for single-quoted values and values with '=', and /usr/lib/os-release takes precedence over /etc/os-release (counterexamples proved)."},
{"property": "C113", "status": "partial", "theorems": ["Verif.Closing.C113_closed", "Verif.Closing.C113_dropped", "Verif.Closing.C113_half", "Verif.Closing.C113_classes", "Verif.Closing.C113_flags", "Verif.Closing.C113_flag_name", "Verif.Closing.C113_only_msr", "Verif.Closing.C113_cpufreq_msr", "Verif.Closing.C113_leak_counterexample", "Verif.Closing.C113_half_counterexample"], "note": "Proved for all sequences of creating and closing objects of classes which treat their attributes properly, which 31 classes of the project do. False of CPUFreqMSR: the MSR object it creates is never closed; false of objects whose constructor failed early if the class has unref_attrs: UnboundLocalError. What close() methods do besides closing objects is not modelled."},
{"property": "C114", "status": "partial", "theorems": ["Verif.FileOps.C114_local", "Verif.FileOps.C114_remote", "Verif.FileOps.C114_same", "Verif.FileOps.C114_newest", "Verif.FileOps.C114_no_python", "Verif.FileOps.C114_exe_counterexample", "Verif.FileOps.C114_link_counterexample", "Verif.FileOps.C114_dangling_counterexample", "Verif.FileOps.C114_space_counterexample", "Verif.FileOps.C114_quote_counterexample", "Verif.FileOps.C114_notdir_counterexample", "Verif.FileOps.C114_mkdir_file_counterexample"], "note": "Proved for calls which meet the conditions Fine (paths without quotes, names without spaces, no directory tested with is_exe, no link to a directory given to rmtree); outside of them the hosts differ, see the counterexamples. Files and directories, not reading and writing them, not mkdir of parents."},
{"property": "C115", "status": "partial", "theorems": ["Verif.EmulHost.C115_inline", "Verif.EmulHost.C115_inline_bad", "Verif.EmulHost.C115_msr", "Verif.EmulHost.C115_dataset", "Verif.EmulHost.C115_again", "Verif.EmulHost.C115_kept", "Verif.EmulHost.C115_paths_partial", "Verif.EmulHost.C115_recorded", "Verif.EmulHost.C115_run_inside", "Verif.EmulHost.C115_run_unknown", "Verif.EmulHost.C115_run_path_partial", "Verif.EmulHost.C115_msr_bad_counterexample", "Verif.EmulHost.C115_exists_partial", "Verif.EmulHost.C115_exists_counterexample", "Verif.EmulHost.C115_reset_counterexample", "Verif.EmulHost.C115_paths_counterexample", "Verif.EmulHost.C115_host_counterexample", "Verif.EmulHost.C115_two_paths_counterexample", "Verif.EmulHost.C115_real_path_counterexample", "Verif.EmulHost.C115_quotes_counterexample"], "note": "False of the code: unlink, rmtree, mkfifo and get_mtime are of the real host (C115_paths_counterexample), only the first path of a command is moved (C115_two_paths_counterexample), loading CPUInfo resets CPUOnline (C115_reset_counterexample), a bad register pair is a ValueError (C115_msr_bad_counterexample). The path theorem is for the redirected operations, the command theorem for a path which occurs once."},
{"property": "C116", "status": "partial", "theorems": ["Verif.Logging.C116_trace", "Verif.Logging.C116_stdout", "Verif.Logging.C116_quiet", "Verif.Logging.C116_log_file", "Verif.Logging.C116_colors", "Verif.Logging.C116_warn_once", "Verif.Logging.C116_warn_once_counterexample", "Verif.Logging.C116_reconfigure_counterexample", "Verif.Logging.C116_error_out", "Verif.Logging.C116_traceback_counterexample", "Verif.Logging.C116_main"], "note": "Everything in the statement is proved; partial because three things a user would expect beside it are false of the code and refuted by counterexamples: warn_once() loses a different message from the same line, a logger configured again without colors keeps them, the traceback has escape sequences without colors. Children of the logger, and the '%' character in a prefix, are not modelled."},
{"property": "C117", "status": "partial", "theorems": ["Verif.CPUFreqFiles.C117_paths", "Verif.CPUFreqFiles.C117_injective", "Verif.CPUFreqFiles.C117_frame", "Verif.CPUFreqFiles.C117_faithful", "Verif.CPUFreqFiles.C117_get", "Verif.CPUFreqFiles.C117_set", "Verif.CPUFreqFiles.C117_warn_once", "Verif.CPUFreqFiles.C117_never_warns", "Verif.CPUFreqFiles.C117_warning_counterexample"], "note": "Proved: the paths are the files of the settings, different settings have different files, writing one leaves the others alone, the abstract paths of the earlier claims are faithful, reading and setting frequencies after any history, at most one warning. The warning about the kernel bug is false of the code: it is never given on a host with online CPUs (C117_never_warns, C117_warning_counterexample). Verification of written frequencies is C106."},
{"property": "C118", "status": "partial", "theorems": ["Verif.PropErrors.C118_cpus", "Verif.PropErrors.C118_packages", "Verif.PropErrors.C118_package_counterexample", "Verif.PropErrors.C118_dies", "Verif.PropErrors.C118_mechanisms", "Verif.PropErrors.C118_name", "Verif.PropErrors.C118_message", "Verif.PropErrors.C118_dies_fine", "Verif.PropErrors.C118_empty_counterexample", "Verif.PropErrors.C118_supported", "Verif.PropErrors.C118_supported_package"], "note": "All the texts round-trip through an independent reader, and 'is supported' is characterised; the claim is false for one package (the message names a CPU) and for a die dictionary with an empty list (IndexError), both proved as counterexamples. Reasons are assumed to start with a visible character."},
{"property": "C119", "status": "partial", "theorems": ["Verif.IntShell.C119_one_thread", "Verif.IntShell.C119_own_result", "Verif.IntShell.C119_threads_partial", "Verif.IntShell.C119_once", "Verif.IntShell.C119_available", "Verif.IntShell.C119_timed_out", "Verif.IntShell.C119_threads_counterexample", "Verif.IntShell.C119_result_counterexample", "Verif.IntShell.C119_async_counterexample", "Verif.IntShell.C119_twice_counterexample", "Verif.IntShell.C119_dropped_counterexample"], "note": "Proved for one thread and all failures and time-outs; for any number of threads and all interleavings if nothing fails and no command ends before its PID is read. False in general: races between threads, a command run twice after its PID could not be read, both shown by counterexamples."},
{"property": "C12", "status": "partial", "theorems": ["Verif.SysfsIO.C12_nothing_written_before_flush", "Verif.SysfsIO.C12_commit", "Verif.SysfsIO.C12_same_as_immediate", "Verif.SysfsIO.C12_commit_succeeds_partial", "Verif.SysfsIO.C12_white_space_counterexample"], "note": "Everything holds except that a commit of a value with white-space around it fails although an immediate write() of it succeeds."},
{"property": "C120", "status": "partial", "theorems": ["Verif.FreqNames.C120_own_value", "Verif.FreqNames.C120_no_cpu_left_out_partial", "Verif.FreqNames.C120_sysfs", "Verif.FreqNames.C120_out_of_range", "Verif.FreqNames.C120_synonyms", "Verif.FreqNames.C120_eff_is_min", "Verif.FreqNames.C120_pm_counterexample", "Verif.FreqNames.C120_guard_counterexample"], "note": "Everything is proved for all names, hosts and CPU lists, except 'Pm' read from ACPI CPPC files that differ between the CPUs: there the claim is false (C120_pm_counterexample: CPU 0 is set twice, CPU 2 is not set, and success is reported). C120_sysfs is end to end through the sysfs files; for other mechanisms C120_own_value gives the calls to the setter."},
{"property": "C121", "status": "partial", "theorems": ["Verif.RunCmd.C121_local", "Verif.RunCmd.C121_history_partial", "Verif.RunCmd.C121_ssh", "Verif.RunCmd.C121_no_capture", "Verif.RunCmd.C121_bad_args", "Verif.RunCmd.C121_mix_counterexample", "Verif.RunCmd.C121_early_counterexample", "Verif.RunCmd.C121_not_found", "Verif.RunCmd.C121_ssh_not_found", "Verif.RunCmd.C121_mixed_missing_counterexample", "Verif.RunCmd.C121_found_counterexample", "Verif.RunCmd.C121_verify_ok", "Verif.RunCmd.C121_verify_kind", "Verif.RunCmd.C121_message", "Verif.RunCmd.C121_timeout", "Verif.RunCmd.C121_ssh_timeout"], "note": "Does not hold after a call with mix_output in the interactive shell: the flag stays (C121_mix_counterexample). Proved for all histories without such calls. Further counterexamples: early stderr lines of a remote command with mix_output, a missing program with mix_output, a program which itself ends with 127 and one line on stderr."},
{"property": "C122", "status": "partial", "theorems": ["Verif.Connect.C122_local", "Verif.Connect.C122_local_error", "Verif.Connect.C122_cli_local", "Verif.Connect.C122_remote_not_local", "Verif.Connect.C122_remote_partial", "Verif.Connect.C122_emulation_counterexample", "Verif.Connect.C122_env", "Verif.Connect.C122_no_user_counterexample", "Verif.Connect.C122_empty_include_counterexample", "Verif.Connect.C122_include_counterexample", "Verif.Connect.C122_bad_timeout_counterexample"], "note": "Does not hold for host names which start with 'emulation', without $USER (TypeError), and with 'Include' lines in the SSH configuration (they hide later files, or end in RecursionError if no file matches). Proved for all other cases."},
{"property": "C123", "status": "partial", "theorems": ["Verif.SetOrder.C123_all_done", "Verif.SetOrder.C123_independent", "Verif.SetOrder.C123_order_partial", "Verif.SetOrder.C123_refused", "Verif.SetOrder.C123_epp_counterexample", "Verif.SetOrder.C123_msr_counterexample"], "note": "Holds for independent files and registers (C123_all_done, C123_independent). For kernels in general it holds if EPP and EPB come first and no registers are changed; otherwise the order is EPP/EPB files, registers, other files, whatever the command line says (C123_epp_counterexample, C123_msr_counterexample), and a refused EPP write drops the changes given before it (C123_refused)."},
{"property": "C124", "status": "partial", "theorems": ["Verif.SaveFile.C124_other_files", "Verif.SaveFile.C124_content_partial", "Verif.SaveFile.C124_part_missing", "Verif.SaveFile.C124_saved_partial", "Verif.SaveFile.C124_failed_partial", "Verif.SaveFile.C124_note", "Verif.SaveFile.C124_last", "Verif.SaveFile.C124_restore", "Verif.SaveFile.C124_dash_counterexample", "Verif.SaveFile.C124_lost_counterexample", "Verif.SaveFile.C124_half_counterexample", "Verif.SaveFile.C124_part_missing_counterexample"], "note": "Not covered: 'cstates save' with '-o -' or an empty name, or with one part of the file empty; a failing command can leave the file empty or half written (counterexamples). Writing to the opened file does not fail."},
{"property": "C125", "status": "partial", "theorems": ["Verif.Dispatch.C125_served", "Verif.Dispatch.C125_distinct", "Verif.Dispatch.C125_distinct_power", "Verif.Dispatch.C125_set_where_read_partial", "Verif.Dispatch.C125_set_own", "Verif.Dispatch.C125_unknown", "Verif.Dispatch.C125_uncore_counterexample", "Verif.Dispatch.C125_ltr_counterexample"], "note": "Holds for all names and mechanisms, except that uncore frequencies cannot be set by CPU (counterexample); unknown names of C-states and power are refused by the check before the dispatch only."},
{"property": "C126", "status": "partial", "theorems": ["Verif.Which.C126_local_sound", "Verif.Which.C126_local_partial", "Verif.Which.C126_local_path", "Verif.Which.C126_cwd_counterexample", "Verif.Which.C126_empty_counterexample", "Verif.Which.C126_slash_counterexample", "Verif.Which.C126_nopath_counterexample", "Verif.Which.C126_remote_partial", "Verif.Which.C126_remote_commands", "Verif.Which.C126_dash_counterexample", "Verif.Which.C126_exec_counterexample", "Verif.Which.C126_gone_counterexample"], "note": "False in general: a file in the current directory comes first, an empty PATH entry is taken for /, a missing PATH is a KeyError, names with a slash are looked up in PATH; on a remote host without the programs 'which' and 'command' every look-up fails (the built-in command is not used, because of exec). Proved otherwise, for all sequences of calls."},
{"property": "C127", "status": "partial", "theorems": ["Verif.ShellCmd.C127_quote", "Verif.ShellCmd.C127_interactive", "Verif.ShellCmd.C127_simple_partial", "Verif.ShellCmd.C127_local", "Verif.ShellCmd.C127_local_list", "Verif.ShellCmd.C127_noshell", "Verif.ShellCmd.C127_list", "Verif.ShellCmd.C127_list_counterexample", "Verif.ShellCmd.C127_cwd_counterexample"], "note": "Proved for all texts of the interactive shell (C127_interactive, C127_quote). False in general: because of exec only the first command of a list is run, and a directory with quotes in its name is run as commands; proved for simple commands and directories without such characters."},
{"property": "C128", "status": "partial", "theorems": ["Verif.PropOptions.C128_config_partial", "Verif.PropOptions.C128_info_partial", "Verif.PropOptions.C128_readonly", "Verif.PropOptions.C128_subsidiary", "Verif.PropOptions.C128_repeated_counterexample", "Verif.PropOptions.C128_abbreviation_counterexample", "Verif.PropOptions.C128_config_abbreviated", "Verif.PropOptions.C128_info_abbreviated", "Verif.PropOptions.C128_several"], "note": "Proved for all command lines of separate option and value arguments, for all four classes. Missing: values which begin with a dash, option and value in one argument, the argument -- (abbreviations are covered by C128_config_abbreviated, C128_info_abbreviated and C128_several); and what is missing from C102 for the options of the program. argparse itself is a model of the library."},
{"property": "C129", "status": "partial", "theorems": ["Verif.WrapFile.C129_translated", "Verif.WrapFile.C129_silent", "Verif.WrapFile.C129_remote", "Verif.WrapFile.C129_msr", "Verif.WrapFile.C129_tpmi", "Verif.WrapFile.C129_epp_partial", "Verif.WrapFile.C129_sysfs_partial", "Verif.WrapFile.C129_refused_counterexample", "Verif.WrapFile.C129_epp_counterexample", "Verif.WrapFile.C129_epp_again_counterexample", "Verif.WrapFile.C129_iteration_counterexample", "Verif.WrapFile.C129_remote_ordinary", "Verif.WrapFile.C129_local_partial", "Verif.WrapFile.C129_verified", "Verif.WrapFile.C129_cached_counterexample"], "note": "False of the code for one text in a sysfs file on the local host: the text is kept until close(), whose failure is only a warning (C129_refused_counterexample); what holds instead is C129_sysfs_partial, C129_silent, and C129_verified for writes with verification. The file objects of Python and of the SFTP module are models of libraries."},
{"property": "C13", "status": "proved", "theorems": ["Verif.SysfsIO.C13_failed_write_not_cached"], "note": "Files may react to a refused write in any way; other files are not affected by it."},
{"property": "C130", "status": "partial", "theorems": ["Verif.CacheInfo.C130_caches_partial", "Verif.CacheInfo.C130_duplicate", "Verif.CacheInfo.C130_retry_counterexample", "Verif.CacheInfo.C130_hex_counterexample", "Verif.CacheInfo.C130_failed", "Verif.CacheInfo.C130_unnamed", "Verif.CacheInfo.C130_keyerror_counterexample"], "note": "Proved for distinct names with decimal, worded, numeric or null values. The rest of the statement is false: an error about duplicate names leaves a partial table which later calls return, and texts like 0x10 raise ValueError, and output without the list or the name raises KeyError."},
{"property": "C131", "status": "partial", "theorems": ["Verif.KverBin.C131_binary_partial", "Verif.KverBin.C131_binary_error", "Verif.KverBin.C131_last_counterexample", "Verif.KverBin.C131_end_counterexample", "Verif.KverBin.C131_printed"], "note": "The outcome is characterised for every output (last word after ' version ' which a space follows). That it is the version of the kernel is false if the build text has the word version, or if nothing follows the version. The split form of the result is not modelled here."},
{"property": "C14", "status": "proved", "theorems": ["Verif.SysfsIO.C14_write_verify", "Verif.SysfsIO.C14_write_verify_int"], "note": "For an arbitrary file system."},
{"property": "C15", "status": "proved", "theorems": ["Verif.CPUInfo.C15_siblings_exact", "Verif.CPUInfo.C15_siblings_partition", "Verif.CPUInfo.C15_siblings_offline"], "note": "all well-formed topology tables"},
{"property": "C16", "status": "proved", "theorems": ["Verif.CPUInfo.C16_cpus_div_packages", "Verif.CPUInfo.C16_cpus_div_packages_refuses"], "note": ""},
{"property": "C17", "status": "proved", "theorems": ["Verif.CPUInfo.C17_cpus_div_dies"], "note": ""},
{"property": "C18", "status": "proved", "theorems": ["Verif.CPUInfo.C18_cpus_div_cores"], "note": ""},
{"property": "C19", "status": "proved", "theorems": ["Verif.CPUInfo.C19_select_core_siblings"], "note": ""},
{"property": "C20", "status": "partial", "theorems": ["Verif.CPUInfo.C20_select_module_siblings_counterexample", "Verif.CPUInfo.C20_select_module_siblings_partial"], "note": "false of the code when module numbers are not globally unique (counterexample proved); proved when they are"},
{"property": "C21", "status": "proved", "theorems": ["Verif.CPUInfo.C21_normalize_cpus"], "note": ""},
{"property": "C22", "status": "proved", "theorems": ["Verif.CPUInfo.C22_level_nums", "Verif.CPUInfo.C22_level_nums_ascending", "Verif.CPUInfo.C22_get_cpus"], "note": ""},
{"property": "C23", "status": "proved", "theorems": ["Verif.Trivial.C23_rangify_roundtrip"], "note": "Non-negative integers, the domain of the property."},
{"property": "C24", "status": "proved", "theorems": ["Verif.Trivial.C24_list_dedup"], "note": ""},
{"property": "C25", "status": "partial", "theorems": ["Verif.Trivial.C25_int_list_dedup_counterexample", "Verif.Trivial.C25_int_list_dedup_partial"], "note": "De-duplication happens before ranges are expanded, so overlapping ranges give duplicates; proved when the elements do not overlap."},
{"property": "C26", "status": "proved", "theorems": ["Verif.PropsBase.C26_get_prop_cpus", "Verif.PropsBase.C26_get_prop_cpus_fails"], "note": "Sub-class generators are parameters; a generator ending normally is assumed to yield every CPU once, in order."},
{"property": "C27", "status": "proved", "theorems": ["Verif.PropsBase.C27_set_prop_cpus"], "note": "Sub-class setters are arbitrary state transformers; value normalisation is a parameter."},
{"property": "C28", "status": "partial", "theorems": ["Verif.PropsBase.C28_reduce_partial", "Verif.PropsBase.C28_set_prop_packages_partial", "Verif.PropsBase.C28_set_prop_dies_partial", "Verif.PropsBase.C28_part_of_unit_counterexample"], "note": "Proved for targets made of entire I/O scope units; false otherwise (units with only a part in the target are dropped), see the counterexample."},
{"property": "C29", "status": "proved", "theorems": ["Verif.PropsBase.C29_scope", "Verif.PropsBase.C29_scope_unsupported"], "note": "Scopes supported by the code; module and node scopes are always refused."},
{"property": "C30", "status": "partial", "theorems": ["Verif.PStates.C30_min_le_max", "Verif.PStates.C30_others_keep", "Verif.HWP.C30_msr_min_le_max_partial", "Verif.HWP.C30_msr_counterexample"], "note": "Proved for the sysfs mechanism (CPU and uncore) and for the msr mechanism without package control; with package control it is false for the msr mechanism (counterexample)."},
{"property": "C31", "status": "proved", "theorems": ["Verif.PStates.C31_refused", "Verif.PStates.C31_refusal_reason", "Verif.PStates.C31_no_value", "Verif.PStates.C31_honoured", "Verif.PStates.C31_refused_mechanisms"], "note": "Sysfs mechanism, CPU and uncore; with fall-back to the next mechanism."},
{"property": "C32", "status": "partial", "theorems": ["Verif.PStates.C32_min_first_partial", "Verif.PStates.C32_max_first_partial", "Verif.PStates.C32_uniform_partial", "Verif.PStates.C32_max_first_counterexample", "Verif.PStates.C32_mixed_counterexample", "Verif.HWP.C32_msr_uniform_partial"], "note": "False of the code: with max first (the code looks for 'mim_freq'), and for CPUs with current limits on both sides of the new ones. The exact condition for success is proved for both orders."},
{"property": "C33", "status": "partial", "theorems": ["Verif.PStates.C33_restore", "Verif.HWP.C33_msr_restore_partial", "Verif.HWP.C33_msr_package_partial", "Verif.HWP.C33_msr_others_counterexample", "Verif.HWP.C33_msr_implausible_counterexample"], "note": "Sysfs mechanism: full. Msr mechanism: with and without package control, from all states in which no register holds a min. limit above the hardware max. frequency or a max. limit below the hardware min. frequency; false otherwise. CPUs which are not in the file but depend on the package register change."},
{"property": "C34", "status": "proved", "theorems": ["Verif.HWP.C34_round_trip", "Verif.HWP.C34_rounding", "Verif.HWP.C34_accepts", "Verif.HWP.C34_monotone", "Verif.HWP.C34_other_limit"], "note": "Floating point division modelled as exact."},
{"property": "C35", "status": "proved", "theorems": ["Verif.PStates.C35_frequencies", "Verif.PStates.C35_other_driver"], "note": ""},
{"property": "C36", "status": "proved", "theorems": ["Verif.PStates.C36_mdl", "Verif.PStates.C36_mdl_in_range", "Verif.PStates.C36_mdl_nearest"], "note": ""},
{"property": "C37", "status": "partial", "theorems": ["Verif.FeaturedMSR.C37_round_trip_partial", "Verif.FeaturedMSR.C37_unknown_refused", "Verif.FeaturedMSR.C37_bad_type_refused", "Verif.FeaturedMSR.C37_not_modified", "Verif.FeaturedMSR.C37_read", "Verif.FeaturedMSR.C37_enable", "Verif.FeaturedMSR.C37_enable_refused", "Verif.FeaturedMSR.C37_bool_alias_counterexample"], "note": "Proved for every well-formed feature table and every spelling. Missing: True/False for a boolean feature which also has aliases, where the code crashes (counterexample); no table in the code is like that."},
{"property": "C38", "status": "proved", "theorems": ["Verif.PCStateConfigCtl.C38_read", "Verif.PCStateConfigCtl.C38_never_over_reports", "Verif.PCStateConfigCtl.C38_tables"], "note": ""},
{"property": "C39", "status": "proved", "theorems": ["Verif.PCStateConfigCtl.C39_locked", "Verif.PCStateConfigCtl.C39_unlocked"], "note": ""},
{"property": "C40", "status": "partial", "theorems": ["Verif.Power.C40_round_trip", "Verif.Power.C40_others", "Verif.Power.C40_order", "Verif.Power.C40_bounds_partial", "Verif.Power.C40_accepts", "Verif.Power.C40_refuses", "Verif.Power.C40_bounds_counterexample", "Verif.Power.C40_nan_counterexample"], "note": "The round trip, the order and the upper bounds are proved. The stored value may be below the lower bound (1/8 of TDP) by less than one power unit because it is rounded down after the check (counterexample). A not-a-number value ends in a ValueError."},
{"property": "C41", "status": "partial", "theorems": ["Verif.EP.C41_epp_refused", "Verif.EP.C41_epb_refused", "Verif.EP.C41_epp_others", "Verif.EP.C41_epb_others", "Verif.EP.C41_epp_sets", "Verif.EP.C41_epb_sets", "Verif.EP.C41_epp_accepts_sysfs_partial", "Verif.EP.C41_epp_accepts_msr_partial", "Verif.EP.C41_mechanism_order_counterexample", "Verif.EP.C41_hexadecimal_counterexample"], "note": "Refusal without writes, exactness of the effect and frame are proved for all inputs. Acceptance is proved for the first mechanism of the list; with the order msr,sysfs a policy name is refused unless CPU 0 is the first requested CPU (counterexample)."},
{"property": "C42", "status": "partial", "theorems": ["Verif.EP.C42_one_mechanism", "Verif.EP.C42_partial", "Verif.EP.C42_uniform", "Verif.EP.C42_epp", "Verif.EP.C42_counterexample"], "note": "Proved for one mechanism, and for several ones if each works for all requested CPUs or not for the first one; false otherwise (counterexample: a CPU is yielded twice)."},
{"property": "C43", "status": "partial", "theorems": ["Verif.CPUIdle.C43_read_partial", "Verif.CPUIdle.C43_get_names_partial", "Verif.CPUIdle.C43_get_all_partial", "Verif.CPUIdle.C43_history", "Verif.CPUIdle.C43_single_state_counterexample", "Verif.CPUIdle.C43_hybrid_counterexample", "Verif.CPUIdle.C43_nocache_counterexample", "Verif.CPUIdle.C43_mixed_counterexample"], "note": "Proved for all systems where each CPU has at least two idle states numbered from 0 and the kernel's per-state files; false when CPUs have a single idle state (CPU gets no states), for 'all' with CPUs having different state names, with caching disabled, and when only some CPUs have idle states: counterexamples proved."},
{"property": "C44", "status": "partial", "theorems": ["Verif.CPUIdle.C44_frame", "Verif.CPUIdle.C44_named", "Verif.CPUIdle.C44_all_partial", "Verif.CPUIdle.C44_succeeds", "Verif.CPUIdle.C44_bad_name", "Verif.CPUIdle.C44_readback", "Verif.CPUIdle.C44_hybrid_counterexample", "Verif.CPUIdle.C44_bad_name_later_counterexample"], "note": "Frame, effect, success and read-back proved for all systems and lists of names; 'all' is exact only if the CPUs have the same state names (counterexample proved); a failing call may have toggled earlier CPUs."},
{"property": "C45", "status": "proved", "theorems": ["Verif.CPUOnline.C45_frame", "Verif.CPUOnline.C45_effect", "Verif.CPUOnline.C45_no_such_cpu", "Verif.CPUOnline.C45_unsupported", "Verif.CPUOnline.C45_unsupported_exception", "Verif.CPUOnline.C45_idempotent", "Verif.CPUOnline.C45_succeeds", "Verif.CPUOnline.C45_is_online", "Verif.CPUOnline.C45_is_online_nofile", "Verif.CPUOnline.C45_sequence"], "note": "Any present/online/hotpluggable sets, any request sequence, stale caches and kernels ignoring or refusing writes included. The kernel changes only the CPU written to."},
{"property": "C46", "status": "proved", "theorems": ["Verif.KernelVersion.C46_accepts", "Verif.KernelVersion.C46_components", "Verif.KernelVersion.C46_order", "Verif.KernelVersion.C46_irreflexive", "Verif.KernelVersion.C46_transitive", "Verif.KernelVersion.C46_total", "Verif.KernelVersion.C46_ge", "Verif.KernelVersion.C46_rc", "Verif.KernelVersion.C46_numbers"], "note": "ASCII digits only and no limit on the number of digits; everything else in the comparison is modelled character by character."},
{"property": "C47", "status": "partial", "theorems": ["Verif.ClosestMatch.C47_distance", "Verif.ClosestMatch.C47_zero", "Verif.ClosestMatch.C47_symmetric", "Verif.ClosestMatch.C47_closest_partial", "Verif.ClosestMatch.C47_nonempty", "Verif.ClosestMatch.C47_exact", "Verif.ClosestMatch.C47_empty_counterexample"], "note": "The closest candidate is returned whenever no candidate is the empty string; an empty candidate is never suggested and hides the candidates after it (counterexample)."},
{"property": "C48", "status": "partial", "theorems": ["Verif.Tpmi.C48_field_partial", "Verif.Tpmi.C48_succeeds", "Verif.Tpmi.C48_wide_counterexample", "Verif.Tpmi.C48_high_counterexample"], "note": "Proved for values which fit the field and fields inside the register, in every execution. Values wider than the field are accepted and spill into the next field; fields defined outside of the register are accepted and lose the value (counterexamples)."},
{"property": "C49", "status": "proved", "theorems": ["Verif.Tpmi.C49_round_trip", "Verif.Tpmi.C49_others", "Verif.Tpmi.C49_refused", "Verif.Tpmi.C49_stays", "Verif.Tpmi.C48_succeeds"], "note": "For 32 and 64-bit registers, every execution and every kernel which stores a word exactly or refuses it."},
{"property": "C50", "status": "proved", "theorems": ["Verif.Tpmi.C50_parse", "Verif.Tpmi.C50_read", "Verif.Tpmi.C50_digits"], "note": "For dumps in the format of Verif/Lemmas/TpmiDump.lean (both the old and the new line format)."},
{"property": "C51", "status": "partial", "theorems": ["Verif.Tpmi.C51_iter_partial", "Verif.Tpmi.C51_single", "Verif.Tpmi.C51_more_counterexample", "Verif.Tpmi.C51_fewer_counterexample"], "note": "Proved if all devices have the same instances. The instances of the first device are used for all later ones, so different instances are skipped or cause an error (counterexamples)."},
{"property": "C52", "status": "partial", "theorems": ["Verif.OpTarget.C52_accepts", "Verif.OpTarget.C52_refuses", "Verif.OpTarget.C52_cpus_partial", "Verif.OpTarget.C52_finds", "Verif.OpTarget.C52_none", "Verif.OpTarget.C52_module_siblings_counterexample"], "note": "For all topologies, option combinations and histories of calls. Missing: module sibling indexes when module numbers repeat in different packages (false of the code, see the counterexample)."},
{"property": "C53", "status": "partial", "theorems": ["Verif.OpTarget.C53_dies_exact", "Verif.OpTarget.C53_dies_partial", "Verif.OpTarget.C53_dies_loose", "Verif.OpTarget.C53_dies_history_partial", "Verif.OpTarget.C53_packages_exact", "Verif.OpTarget.C53_packages_partial", "Verif.OpTarget.C53_packages_loose", "Verif.OpTarget.C53_packages_history_partial", "Verif.OpTarget.C53_dies_counterexample", "Verif.OpTarget.C53_packages_counterexample"], "note": "Exact results for all histories; coverage and independence of history for all histories without an earlier non-strict call of the same kind. With one the claim is false of the code: the result of the non-strict call is cached and then returned to strict callers."},
{"property": "C54", "status": "proved", "theorems": ["Verif.PMQoS.C54_nearest", "Verif.PMQoS.C54_exact", "Verif.PMQoS.C54_roundtrip", "Verif.PMQoS.C54_roundtrip_exact", "Verif.PMQoS.C54_succeeds", "Verif.PMQoS.C54_global"], "note": "Binary floating point is a rounding function with the IEEE relative error bound, not exact arithmetic; the kernel stores the value written or refuses it."},
{"property": "C55", "status": "proved", "theorems": ["Verif.ASPM.C55_policies", "Verif.ASPM.C55_active", "Verif.ASPM.C55_refuses", "Verif.ASPM.C55_set"], "note": "For every list of names and every position of the active one, in the format the kernel prints; the kernel activates the name written or refuses it."},
{"property": "C56", "status": "proved", "theorems": ["Verif.UncoreFreq.C56_round_trip", "Verif.UncoreFreq.C56_different", "Verif.UncoreFreq.C56_name", "Verif.UncoreFreq.C56_dies"], "note": "For all numbers. C56_dies covers the dies information of systems with the legacy interface only."},
{"property": "C57", "status": "proved", "theorems": ["Verif.CPUFreq.C57_turbo_round_trip", "Verif.CPUFreq.C57_unsupported_driver", "Verif.CPUFreq.C57_only_turbo_files", "Verif.CPUFreq.C57_off_mode", "Verif.CPUFreq.C57_mode_round_trip", "Verif.CPUFreq.C57_mode_validated", "Verif.CPUFreq.C57_driver", "Verif.CPUFreq.C57_supported"], "note": ""},
{"property": "C58", "status": "proved", "theorems": ["Verif.Human.C58_round_trip", "Verif.Human.C58_minutes", "Verif.Human.C58_days", "Verif.Human.C58_negative_counterexample"], "note": "Whole numbers of seconds. Durations of one day or longer are printed as '1 days ...' which the parser refuses; negative durations are shown with a counterexample not to round-trip."},
{"property": "C59", "status": "partial", "theorems": ["Verif.HWP.C59_not_controlled", "Verif.HWP.C59_others_partial", "Verif.HWP.C59_package_register", "Verif.HWP.C59_others_counterexample", "Verif.EP.C59_epp_not_controlled", "Verif.EP.C59_epp_others"], "note": "EPP: proved. Min/max performance: the second half is false of the code: the valid bit is set on all CPUs with package control (counterexample)."},
{"property": "C60", "status": "proved", "theorems": ["Verif.CPUFreq.C60_governor_set", "Verif.CPUFreq.C60_only_available"], "note": ""},
{"property": "C61", "status": "partial", "theorems": ["Verif.EP.C61_epp_partial", "Verif.EP.C61_epb_partial", "Verif.EP.C61_epp_counterexample", "Verif.EP.C61_epb_counterexample"], "note": "Proved if the kernel translates values the same way on all CPUs and EPB is not shared; false otherwise (counterexamples)."},
{"property": "C62", "status": "partial", "theorems": ["Verif.OpTarget.C62_dies_partial", "Verif.OpTarget.C62_packages_partial", "Verif.OpTarget.C62_dies_counterexample", "Verif.OpTarget.C62_packages_counterexample"], "note": "Proved without sibling indexes, and for packages when they do not qualify core or die numbers. Otherwise false of the code, see the counterexamples."},
{"property": "C63", "status": "proved", "theorems": ["Verif.ASPM.C63_toggle", "Verif.ASPM.C63_missing"], "note": "The kernel shows what was written or refuses it. Opening a file that does not exist fails with 'not found' for writing, too."},
{"property": "C64", "status": "proved", "theorems": ["Verif.UncoreFreq.C64_dies", "Verif.UncoreFreq.C64_get", "Verif.UncoreFreq.C64_limits", "Verif.UncoreFreq.C64_cpus", "Verif.UncoreFreq.C64_clusters_counterexample"], "note": "For the kernel driver in Props/UncoreSpec.lean: frequencies and limits, by dies and by CPUs. If a domain has several directories (clusters), only the last one is used: C64_clusters_counterexample."},
{"property": "C65", "status": "partial", "theorems": ["Verif.UncoreFreq.C65_set", "Verif.UncoreFreq.C65_succeeds", "Verif.UncoreFreq.C65_history", "Verif.UncoreFreq.C65_cpus_partial", "Verif.UncoreFreq.C65_cpus_counterexample", "Verif.UncoreFreq.C65_failure_counterexample"], "note": "The functions for dies are covered in full. The functions for CPUs do not unlock, so they are refused values the functions for dies can set (C65_cpus_counterexample). A write that fails while unlocking changes dies that were not given (C65_failure_counterexample)."},
{"property": "C66", "status": "partial", "theorems": ["Verif.Tpmi.C66_yields_partial", "Verif.Tpmi.C66_unknown_device", "Verif.Tpmi.C66_wrong_package", "Verif.Tpmi.C66_unknown_package", "Verif.Tpmi.C66_unknown_instance", "Verif.Tpmi.C66_packages_counterexample"], "note": "Missing: devices of different packages requested along with their packages are refused (C66_packages_counterexample)."},
{"property": "C67", "status": "proved", "theorems": ["Verif.Human.C67_int", "Verif.Human.C67_float", "Verif.Human.C67_whole"], "note": "Floating point operations are exact operations followed by a rounding with bounded relative error (IsRounding); ASCII digits."},
{"property": "C68", "status": "proved", "theorems": ["Verif.Human.C68_int", "Verif.Human.C68_plain", "Verif.Human.C68_float"], "note": "Units Hz, s and W, the units of the properties."},
{"property": "C69", "status": "proved", "theorems": ["Verif.Human.C69_round_trip", "Verif.Human.C69_zero", "Verif.Human.C69_prefix_counterexample"], "note": "Units without an SI prefix. The counterexample shows that a unit with a prefix loses it: num2si(5, 'kHz') is '5.0Hz'; the project prints only values in units without a prefix."},
{"property": "C70", "status": "proved", "theorems": ["Verif.MSR.C70_refines_plain_registers", "Verif.MSR.C70_global_counterexample"], "note": "For registers which keep what is written to them, reads which are not refused, and writes which are refused for all CPUs sharing a register or none of them. The counterexample is for the 'global' scope, which no register of the project has."},
{"property": "C71", "status": "proved", "theorems": ["Verif.SysfsIO.C71_refines_plain_files"], "note": "Simulation of the object by Verif.SysFiles (the files without the cache), which the models of the users of SysfsIO are built on. Previous history may include transactions."},
{"property": "C72", "status": "partial", "theorems": ["Verif.TopoBuild.C72_table_partial", "Verif.TopoBuild.C72_queries_partial", "Verif.TopoBuild.C72_counterexample"], "note": "Proved for histories where every die with CPUs always had an online CPU; the counterexample shows that a die whose CPUs were offline when dies were first requested stays cached as an I/O die."},
{"property": "C73", "status": "partial", "theorems": ["Verif.ProcOut.C73_prefix", "Verif.ProcOut.C73_limit", "Verif.ProcOut.C73_exit_partial", "Verif.ProcOut.C73_run_partial", "Verif.ProcOut.C73_live", "Verif.ProcOut.C73_counterexample", "Verif.ProcOut.C73_exit_counterexample"], "note": "Proved for all histories: what is returned is a beginning of the output, in entire lines; with the exit code all lines were returned. Missing: the last line if it has no line end is lost (counterexample); the exit code of a process which exits late after closing its streams is never returned (counterexample)."},
{"property": "C74", "status": "proved", "theorems": ["Verif.ProcOut.C74_prefix", "Verif.ProcOut.C74_exit", "Verif.ProcOut.C74_live", "Verif.ProcOut.C74_run", "Verif.ProcOut.C74_run_live", "Verif.ProcOut.C74_counterexample", "Verif.ProcOut.C74_race_counterexample", "Verif.ProcOut.C74_late_counterexample"], "note": "Proved for all outputs ending with a new line, all chunks and timings. The counterexamples show that the condition is needed, that a standard error chunk arriving at the very end makes run() time out, and that late standard error output goes to the next command."},
{"property": "C75", "status": "proved", "theorems": ["Verif.MSR.C75_remote_same", "Verif.MSR.C75_refines_plain_registers", "Verif.MSR.C75_scopes_counterexample"], "note": "Every register is used with one scope (one scope function for all calls), as in the project; the counterexample shows that otherwise local and remote reads differ. The exception class of a failed call may differ between local and remote hosts when a hardware access fails."},
{"property": "C76", "status": "proved", "theorems": ["Verif.PropsYaml.C76_exact", "Verif.PropsYaml.C76_restore", "Verif.PropsYaml.C76_failure"], "note": "The YAML library, and what the setter methods do with a request (C27-C33 and others), are outside of this claim."},
{"property": "C77", "status": "partial", "theorems": ["Verif.CStatesYaml.C77_restore_partial", "Verif.CStatesYaml.C77_mixed_counterexample", "Verif.CStatesYaml.C77_limit_partial", "Verif.CStatesYaml.C77_limit_counterexample"], "note": "Proved for C-states that have one status on all saved CPUs, and for a limit locked on all or none of the CPUs. False otherwise (counterexamples): restoring fails for a status that differs between CPUs, and saving crashes for a partly locked limit."},
{"property": "C78", "status": "partial", "theorems": ["Verif.PrinterText.C78_cpus", "Verif.PrinterText.C78_packages", "Verif.PrinterText.C78_dies", "Verif.PrinterText.C78_die_scope_partial", "Verif.PrinterText.C78_one_die_counterexample", "Verif.PrinterText.C78_list", "Verif.PrinterText.C78_list_plain"], "note": "Proved for CPUs, packages, dies and lists. Missing: per-die values on systems where package 0 has one die and another package has more; there the message is ambiguous (counterexample)."},
{"property": "C79", "status": "partial", "theorems": ["Verif.FreqInfo.C79_msr_values", "Verif.FreqInfo.C79_msr_refuses", "Verif.FreqInfo.C79_msr_other_vendor", "Verif.FreqInfo.C79_msr_all_or_nothing", "Verif.FreqInfo.C79_msr_order", "Verif.FreqInfo.C79_base_sysfs_partial", "Verif.FreqInfo.C79_base_sysfs_counterexample", "Verif.FreqInfo.C79_available", "Verif.FreqInfo.C79_cppc_partial", "Verif.FreqInfo.C79_cppc_order", "Verif.FreqInfo.C79_cppc_counterexample", "Verif.FreqInfo.C79_reported_partial"], "note": "The part about registers and the list of available frequencies are proved in full. The sysfs and ACPI CPPC parts are false for CPUs which have different files (counterexamples); proved for CPUs which are alike."},
{"property": "C80", "status": "partial", "theorems": ["Verif.FreqList.C80_range", "Verif.FreqList.C80_frequencies", "Verif.FreqList.C80_multiples", "Verif.FreqList.C80_other_driver", "Verif.FreqList.C80_available", "Verif.FreqList.C80_settings_counterexample", "Verif.FreqList.C80_bus_clock", "Verif.FreqList.C80_bus_clock_other_vendor", "Verif.FreqList.C80_same_bus_clock", "Verif.FreqList.C80_doc_only_counterexample", "Verif.FreqList.C80_property_files", "Verif.FreqList.C80_property_steps"], "note": "The list is exact for the current min. and max. frequency, but the code uses these settings instead of the limits of the hardware (counterexample). Naming the 'doc' mechanism fails on processors with the bus clock register (counterexample)."},
{"property": "C81", "status": "partial", "theorems": ["Verif.IdleGov.C81_idle_cache", "Verif.IdleGov.C81_idle_reads", "Verif.IdleGov.C81_idle_set", "Verif.IdleGov.C81_idle_last", "Verif.IdleGov.C81_idle_cpu0_counterexample"], "note": "Proved for all histories when CPU 0 is online or caching is disabled. With caching and CPU 0 offline the claim is false of the code (counterexample): the cached items belong to CPU 0 and the cache refuses an offline CPU."},
{"property": "C82", "status": "proved", "theorems": ["Verif.CStates.C82_get", "Verif.CStates.C82_set", "Verif.CStates.C82_refused", "Verif.CStates.C82_works", "Verif.CStates.C82_untouched", "Verif.CStates.C82_last"], "note": "Values are specified by register bits and files; a host is well-formed if CPUs sharing a register are in the same unit. For the first CStates object of the process (see C83)."},
{"property": "C83", "status": "partial", "theorems": ["Verif.PropScopes.C83_scopes_partial", "Verif.PropScopes.C83_scopes_counterexample"], "note": "Proved if all objects are created before the first method is called (in particular for one object). False of the code otherwise (counterexample): the scope is stored in the module-level PROPS, a later object copies it, never looks at its own host, and uses the scope as the I/O scope."},
{"property": "C84", "status": "partial", "theorems": ["Verif.PropScopes.C84_set_packages_partial", "Verif.PropScopes.C84_second_object_counterexample"], "note": "Proved for an object which knows the scopes (see C83), CPU models where the register is not shared by module, and packages as the scope. For the second object of a process the claim is false of the code (counterexample): the call reports success, but only the first core of the package gets the limit."},
{"property": "C85", "status": "partial", "theorems": ["Verif.TopoPrint.C85_table_partial", "Verif.TopoPrint.C85_works", "Verif.TopoPrint.C85_refused", "Verif.TopoPrint.C85_columns_counterexample", "Verif.TopoPrint.C85_io_kind_counterexample"], "note": "Lines are compared by their words (white space between columns ignored). Partial: on hybrid systems the \"Hybrid\" column is printed even if --columns does not list it (counterexample), and I/O dies are shown as \"E-core\" in it (counterexample). The CPUs and dies the user asks for (see the claims about OpTarget) are inputs."},
{"property": "C86", "status": "partial", "theorems": ["Verif.PropsTarget.C86_set_partial", "Verif.PropsTarget.C86_refused_partial", "Verif.PropsTarget.C86_works_partial", "Verif.PropsTarget.C86_siblings_counterexample", "Verif.PropsTarget.C86_io_die_counterexample", "Verif.PropsTarget.C86_loose_counterexample"], "note": "False of the code if the options name a package (die) of which no CPU is targeted, and after a non-strict request (counterexamples). Otherwise full, given that the units of the I/O scope are not wider than the units of the scope, and given the contract of the writing method (proved for the real ones in other claims)."},
{"property": "C87", "status": "partial", "theorems": ["Verif.PropsTarget.C87_get_partial", "Verif.PropsTarget.C87_works_partial", "Verif.PropsTarget.C87_no_scope", "Verif.PropsTarget.C87_mixed_counterexample", "Verif.PropsTarget.C87_io_die_counterexample"], "note": "False of the code if the first CPU does not support the property and another one does (counterexample), and for I/O dies. Otherwise full; same limits on the options as for C86."},
{"property": "C88", "status": "partial", "theorems": ["Verif.RaplLimits.C88_reachable", "Verif.RaplLimits.C88_set_switch", "Verif.RaplLimits.C88_set_switch_keeps", "Verif.RaplLimits.C88_set_switch_works", "Verif.RaplLimits.C88_get_switch", "Verif.RaplLimits.C88_get_switch_works", "Verif.RaplLimits.C88_get_window", "Verif.RaplLimits.C88_get_window_works", "Verif.RaplLimits.C88_others_keep", "Verif.RaplLimits.C88_limit_counterexample", "Verif.RaplLimits.C88_false_failure_counterexample", "Verif.RaplLimits.C88_transaction_counterexample", "Verif.RaplLimits.C88_refused"], "note": "Everything but the limits, for all states reached by operations where writes are not refused and no switch failed in a transaction. False of the limits (locked register), and after a limit the hardware did not take a switch may report a failure though it was set; a switch which failed in a transaction leaves a wrong value in the cache of the packages which were not checked (counterexamples)."},
{"property": "C89", "status": "partial", "theorems": ["Verif.Tpmi.C89_accepted", "Verif.Tpmi.C89_accepts", "Verif.Tpmi.C89_bits", "Verif.Tpmi.C89_width", "Verif.Tpmi.C89_fields_counterexample", "Verif.Tpmi.C89_offset_counterexample", "Verif.Tpmi.C89_crash_counterexample"], "note": "Exactly the well-formed files are accepted, with the meaning they state. Not provable because false of the code: fields inside the register, no overlaps, non-negative offsets, an error message for every malformed file (counterexamples)."},
{"property": "C90", "status": "partial", "theorems": ["Verif.Tpmi.C90_specs", "Verif.Tpmi.C90_scan", "Verif.Tpmi.C90_devices", "Verif.Tpmi.C90_info", "Verif.Tpmi.C90_sound", "Verif.Tpmi.C90_features", "Verif.Tpmi.C90_unknown", "Verif.Tpmi.C90_package", "Verif.Tpmi.C90_packages", "Verif.Tpmi.C90_env", "Verif.Tpmi.C90_start", "Verif.Tpmi.C90_works", "Verif.Tpmi.C90_override_counterexample", "Verif.Tpmi.C90_yaml_counterexample", "Verif.Tpmi.C90_truncated_counterexample", "Verif.Tpmi.C90_unknown_counterexample", "Verif.Tpmi.C90_same_id_counterexample"], "note": "Proved for all spec files, directories and hardware, with different IDs for different features. False of the code, with counterexamples: a user's spec file overrides the standard one as a whole, known features can be accessed ('.yaml' files), broken files are skipped (truncated ones end the program), unknown features are listed once."},
{"property": "C91", "status": "partial", "theorems": ["Verif.Tpmi.C91_write", "Verif.Tpmi.C91_write_field_partial", "Verif.Tpmi.C91_write_fails", "Verif.Tpmi.C91_write_works", "Verif.Tpmi.C91_read", "Verif.Tpmi.C91_read_field", "Verif.Tpmi.C91_read_pure", "Verif.Tpmi.C91_read_works", "Verif.Tpmi.C91_once", "Verif.Tpmi.C91_bfname", "Verif.Tpmi.C91_round_trip", "Verif.Tpmi.C91_round_trip_field_partial", "Verif.Tpmi.C91_env", "Verif.Tpmi.C91_instances_counterexample", "Verif.Tpmi.C91_field_counterexample", "Verif.Tpmi.C91_unknown_counterexample"], "note": "Without given instances the claim is false when devices have different instances (C91_instances_counterexample): only those of the first device are used. For bit fields it is false for values wider than the field (C91_field_counterexample). Everything else is proved for all machines and histories. Splitting of the option strings is C25."},
{"property": "C92", "status": "partial", "theorems": ["Verif.HotplugCmd.C92_offline_partial", "Verif.HotplugCmd.C92_offline_outcome_partial", "Verif.HotplugCmd.C92_offline_any", "Verif.HotplugCmd.C92_offline_refused", "Verif.HotplugCmd.C92_offline_unsupported", "Verif.HotplugCmd.C92_offline_works", "Verif.HotplugCmd.C92_offline_everything", "Verif.HotplugCmd.C92_online", "Verif.HotplugCmd.C92_online_refused", "Verif.HotplugCmd.C92_back", "Verif.HotplugCmd.C92_info", "Verif.HotplugCmd.C92_indirect_counterexample", "Verif.HotplugCmd.C92_repeat_counterexample"], "note": "Proved for all lists of numbers and ranges as option texts. Missing: with '--module-siblings', module numbers which repeat in different packages (C52_module_siblings_counterexample). False of the code and proved so: CPUs specified indirectly are not skipped if other CPUs are named (C92_indirect_counterexample); offlining the same CPUs again is an error (C92_repeat_counterexample)."},
{"property": "C93", "status": "partial", "theorems": ["Verif.HumanPrint.C93_exact", "Verif.HumanPrint.C93_told", "Verif.HumanPrint.C93_read_failure", "Verif.HumanPrint.C93_unknown", "Verif.HumanPrint.C93_unambiguous", "Verif.HumanPrint.C93_name_counterexample"], "note": "Everything except that the printed name identifies the property: this is false, 'ppl1' and 'ppl1_enable' have the same name (counterexample). Systems where package 0 has one die and other packages have more are excluded, see C78."},
{"property": "C94", "status": "partial", "theorems": ["Verif.HumanCStates.C94_told", "Verif.HumanCStates.C94_exact_partial", "Verif.HumanCStates.C94_failure", "Verif.HumanCStates.C94_notes_counterexample"], "note": "Lines are read back to (C-state, status, CPU) and (C-state, note) facts and these are exactly the facts in the sysfs files. Missing: CPUs with different C-states or only one C-state (C43), and which CPUs a note is for (false: counterexample)."},
{"property": "C95", "status": "partial", "theorems": ["Verif.CStatesCmd.C95_frame", "Verif.CStatesCmd.C95_config_partial", "Verif.CStatesCmd.C95_works", "Verif.CStatesCmd.C95_refuses", "Verif.CStatesCmd.C95_no_cpus", "Verif.CStatesCmd.C95_info_reads", "Verif.CStatesCmd.C95_info_partial", "Verif.CStatesCmd.C95_mechanism_counterexample", "Verif.CStatesCmd.C95_atomic_counterexample", "Verif.CStatesCmd.C95_empty_counterexample"], "note": "Partial: 'all' needs the selected CPUs to have the same C-states (C43, C44), and every selected CPU must have C-states. '--mechanisms' does not matter for C-states, the command is not atomic, and an argument naming nothing prints a wrong message (counterexamples). Properties of the command are parameters."},
{"property": "C96", "status": "proved", "theorems": ["Verif.ASPMCmd.C96_config", "Verif.ASPMCmd.C96_failure", "Verif.ASPMCmd.C96_refuses", "Verif.ASPMCmd.C96_works", "Verif.ASPMCmd.C96_info", "Verif.ASPMCmd.C96_atomic_counterexample", "Verif.ASPMCmd.C96_unverified_counterexample"], "note": "The L1 state is not read back by the code, so that part assumes that the kernel shows what was written (counterexample without it). The command is not atomic (counterexample)."},
{"property": "C97", "status": "partial", "theorems": ["Verif.PropsCmd.C97_frame_partial", "Verif.PropsCmd.C97_config_partial", "Verif.PropsCmd.C97_all_or_nothing_partial", "Verif.PropsCmd.C97_invariant_partial", "Verif.PropsCmd.C97_refuses", "Verif.PropsCmd.C97_works_partial", "Verif.PropsCmd.C97_info_partial", "Verif.PropsCmd.C97_order_counterexample"], "note": "Partial: options must be Plain (see C86), a mechanism must be supported by all targeted CPUs or by none (C87), and C97_works_partial leaves out die scope properties. The order of '--min-freq' and '--max-freq' matters because of a misspelled name in the code (counterexample)."},
{"property": "C98", "status": "partial", "theorems": ["Verif.PMQoSCmd.C98_frame_partial", "Verif.PMQoSCmd.C98_safe_partial", "Verif.PMQoSCmd.C98_config_partial", "Verif.PMQoSCmd.C98_bad_partial", "Verif.PMQoSCmd.C98_refuses", "Verif.PMQoSCmd.C98_works_partial", "Verif.PMQoSCmd.C98_info_partial", "Verif.PMQoSCmd.C98_empty_counterexample", "Verif.PMQoSCmd.C98_told_counterexample", "Verif.PMQoSCmd.C98_atomic_counterexample"], "note": "Partial: module numbers must be unique when module sibling indexes are used, and all targeted CPUs have a limit file or none of them has. Limits above 2^44 us and durations whose last unit is days are not covered by Stands. C97 for the concrete class; the contract is proved, not assumed."},
{"property": "C99", "status": "partial", "theorems": ["Verif.RestoreCmd.C99_frame_partial", "Verif.RestoreCmd.C99_restore_partial", "Verif.RestoreCmd.C99_all_or_nothing_partial", "Verif.RestoreCmd.C99_invariant_partial", "Verif.RestoreCmd.C99_bad", "Verif.RestoreCmd.C99_saved_partial", "Verif.RestoreCmd.C99_saved_pair_partial", "Verif.RestoreCmd.C99_saved_frame_partial", "Verif.RestoreCmd.C99_works_partial", "Verif.RestoreCmd.C99_save_works_partial", "Verif.RestoreCmd.C99_package_counterexample", "Verif.RestoreCmd.C99_told_counterexample"], "note": "Generic over the contract of C97. Missing: entries for units which are not of the scope of the property, CPUs which have only one frequency of a pair, and that saving and restoring succeed for properties with die scope; two counterexamples show where restoring does not succeed, and that lines are printed before a commit which may fail."}
]}
