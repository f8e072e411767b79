{
 "claims": [
  {
   "property": "C01",
   "status": "proved",
   "theorems": [
    "Vermin.Props.C01_combine_satisfies",
    "Vermin.Props.C01_combine_least",
    "Vermin.Props.C01_combine_comm",
    "Vermin.Props.C01_combine_assoc",
    "Vermin.Props.C01_combine_idem_neutral"
   ],
   "note": ""
  },
  {
   "property": "C02",
   "status": "proved",
   "theorems": [
    "Vermin.Props.C02_combine_raises_iff",
    "Vermin.Props.C02_combine_raises_kind"
   ],
   "note": ""
  },
  {
   "property": "C03",
   "status": "proved",
   "theorems": [
    "Vermin.Props.C03_order_independent",
    "Vermin.Props.C03_order_independent_ignore",
    "Vermin.Props.C03_error_iff",
    "Vermin.Props.C03_insane_order_dependent"
   ],
   "note": "For requirements not excluding both majors (all rules are such, C12); the assumption is shown to be needed."
  },
  {
   "property": "C04",
   "status": "proved",
   "theorems": [
    "Vermin.Props.C04_monotone",
    "Vermin.Props.C04_satisfies_all"
   ],
   "note": ""
  },
  {
   "property": "C05",
   "status": "proved",
   "theorems": [
    "Vermin.Props.C05_default_sep_injective",
    "Vermin.Props.C05_colon_sep_injective",
    "Vermin.Props.C05_total",
    "Vermin.Props.C05_parts"
   ],
   "note": ""
  },
  {
   "property": "C06",
   "status": "proved",
   "theorems": [
    "Vermin.Props.C06_two",
    "Vermin.Props.C06_report_total",
    "Vermin.Props.C06_main_total",
    "Vermin.Props.C06_zero_in_range"
   ],
   "note": "The version range of any processing result has no (0,0) (C21), which is what the assertions need; C06_main_total covers all lists of per-file outcomes, sequential and parallel, including aborted runs."
  },
  {
   "property": "C07",
   "status": "proved",
   "theorems": [
    "Vermin.Props.C07_parse_target_iff",
    "Vermin.Props.C07_roundtrip",
    "Vermin.Props.C07_range"
   ],
   "note": "parse_target as a function on strings, exact language, round trip and range."
  },
  {
   "property": "C08",
   "status": "proved",
   "theorems": [
    "Vermin.Props.C08_compare_iff",
    "Vermin.Props.compareRequirements_iff"
   ],
   "note": "compare_requirements decides the documented predicate."
  },
  {
   "property": "C09",
   "status": "partial",
   "theorems": [
    "Vermin.Props.C09_false",
    "Vermin.Props.C09_targets_honoured_partial",
    "Vermin.Props.C09_some_target_honoured_partial",
    "Vermin.Props.C09_exact"
   ],
   "note": "False for two targets of the same major version (only the last counts): C09_false. Proved for targets with distinct majors. C09_exact says for all targets exactly what is compared."
  },
  {
   "property": "C10",
   "status": "proved",
   "theorems": [
    "Vermin.Props.C10_targets",
    "Vermin.Props.C10_rejected"
   ],
   "note": "all histories of add_target/clear_targets on a Config"
  },
  {
   "property": "C100",
   "status": "proved",
   "theorems": [
    "Vermin.Props.C100_findings",
    "Vermin.Props.C100_harmless",
    "Vermin.Props.C100_inPlace",
    "Vermin.Props.C100_alone",
    "Vermin.Props.C100_witness",
    "Vermin.Props.C100_others"
   ],
   "note": "Padded is the relation between a program and the one with more statements. Positions and identities of the other nodes may change as in C88. Dumping of AST nodes is off because nodes are dumped with all their parts. C100_others shows why continue, True and long are not harmless."
  },
  {
   "property": "C101",
   "status": "proved",
   "theorems": [
    "Vermin.Props.C101_renamed",
    "Vermin.Props.C101_rewritten",
    "Vermin.Props.C101_swapped",
    "Vermin.Props.C101_foreign",
    "Vermin.Props.C101_witness",
    "Vermin.Props.C101_known",
    "Vermin.Props.C101_merged"
   ],
   "note": "Renaming is the condition on the choice of names, knownNames the names that mean something (keys of the rules and a list of words). fstring-self-doc is off because that feature compares dumps of nodes, which are input of the model. C101_known and C101_merged show that renaming to a known name and merging of names matter."
  },
  {
   "property": "C102",
   "status": "proved",
   "theorems": [
    "Vermin.Props.C102_program",
    "Vermin.Props.C102_code",
    "Vermin.Props.C102_file",
    "Vermin.Props.C102_silent",
    "Vermin.Props.C102_witness",
    "Vermin.Props.C102_shown"
   ],
   "note": "SaysSame is the closure of the changes under composition and inversion; names of backports stay. The partial properties among those named contribute the changes for which they are proved. C102_shown: at verbosity 3 positions are shown, so the printed text may differ."
  },
  {
   "property": "C103",
   "status": "proved",
   "theorems": [
    "Vermin.Props.C103_parse",
    "Vermin.Props.C103_program",
    "Vermin.Props.C103_witness",
    "Vermin.Props.C103_parsable",
    "Vermin.Props.C103_listed"
   ],
   "note": "Patterns are ones re.compile accepts (on the command line, others raise; in a file, they are reported); values on the command line are not spelled like options. What parsing itself prints, such as \"Using detected config\", is the matter of C77. C103_parsable: the condition on the parsable format is needed."
  },
  {
   "property": "C104",
   "status": "proved",
   "theorems": [
    "Vermin.Props.C104_path",
    "Vermin.Props.C104_required",
    "Vermin.Props.C104_fewer",
    "Vermin.Props.C104_minimum",
    "Vermin.Props.C104_exit",
    "Vermin.Props.C104_grows",
    "Vermin.Props.C104_spoils",
    "Vermin.Props.C104_witness",
    "Vermin.Props.C104_init",
    "Vermin.Props.C104_left"
   ],
   "note": "Runs in which the analysis of no file raises and no two files are incompatible (Orderly). C104_path: the same for detect(), whose result is equal for paths of the same role. C104_init: what depends on the role of a file. C104_left: why files that are left must need a version of each target's major."
  },
  {
   "property": "C105",
   "status": "proved",
   "theorems": [
    "Vermin.Props.C105_beside",
    "Vermin.Props.strangers_of_identifiers",
    "Vermin.Props.C105_witness",
    "Vermin.Props.C105_false_names"
   ],
   "note": "With C87 the requirement of a program is at least those of both parts. Strangers is what is assumed about the parts; strangers_of_identifiers: parts without common identifiers are. C105_false_names: why names are excepted."
  },
  {
   "property": "C106",
   "status": "proved",
   "theorems": [
    "Vermin.Props.C106_parts",
    "Vermin.Props.unrelated_of_identifiers",
    "Vermin.Props.C106_witness",
    "Vermin.Props.C106_false_names"
   ],
   "note": "Unrelated is what is assumed about the parts; unrelated_of_identifiers: parts without common identifiers are, if names are single. C106_false_names: why names are excepted. Exclusions are not covered: visit_Attribute looks up members of imported modules only if some other module was found, so that an excluded module makes a difference."
  },
  {
   "property": "C107",
   "status": "proved",
   "theorems": [
    "Vermin.Props.C107_many",
    "Vermin.Props.C107_order",
    "Vermin.Props.C107_witness",
    "Vermin.Props.C107_false_order"
   ],
   "note": "C107_many extends C106 to any number of parts, C107_order is about their order. C107_false_order: why names are excepted."
  },
  {
   "property": "C108",
   "status": "proved",
   "theorems": [
    "Vermin.Props.C108_module",
    "Vermin.Props.C108_member",
    "Vermin.Props.C108_argument",
    "Vermin.Props.C108_added",
    "Vermin.Props.C108_members",
    "Vermin.Props.C108_arguments",
    "Vermin.Props.C108_dropped",
    "Vermin.Props.C108_dropped_members",
    "Vermin.Props.C108_renamed",
    "Vermin.Props.C108_shared",
    "Vermin.Props.C108_shared_members",
    "Vermin.Props.C108_records",
    "Vermin.Props.C108_witness",
    "Vermin.Props.C108_witness_argument",
    "Vermin.Props.C108_false_dummy_threading",
    "Vermin.Props.C108_false_forgotten"
   ],
   "note": "The dates are in Spec/History.lean, independent of the rules. C108_false_dummy_threading: a module that is not in the lists because its rule is wrong. C108_false_forgotten: members that Python 3 dropped and that have no rule."
  },
  {
   "property": "C109",
   "status": "partial",
   "theorems": [
    "Vermin.Props.C109_errors_partial",
    "Vermin.Props.C109_encodings_partial",
    "Vermin.Props.C109_only",
    "Vermin.Props.C109_handlers_partial",
    "Vermin.Props.C109_encoded_partial",
    "Vermin.Props.C109_witness",
    "Vermin.Props.C109_false_iterencode",
    "Vermin.Props.C109_false_recoder"
   ],
   "note": "False: encodings given to iterencode and iterdecode are looked for one place too late (C109_false_iterencode), and the name of StreamRecoder is misspelt (C109_false_recoder). Proved for all others; C109_only: nothing else is taken for such a function."
  },
  {
   "property": "C11",
   "status": "proved",
   "theorems": [
    "Vermin.Props.C11_no_targets",
    "Vermin.Props.C11_targets_iff",
    "Vermin.Props.C11_no_files"
   ],
   "note": "Targets with one version per major, minimum versions of the right major (Majored). An unknown part (0,0) has major 0, so it never meets a 2.x or 3.x target."
  },
  {
   "property": "C110",
   "status": "proved",
   "theorems": [
    "Vermin.Props.C110_function",
    "Vermin.Props.C110_same",
    "Vermin.Props.C110_witness",
    "Vermin.Props.C110_rises",
    "Vermin.Props.C110_false_names",
    "Vermin.Props.C110_false_dir"
   ],
   "note": "Encloses says what the function is, NewName that its name is not used. C110_rises: why more may be required in the function. C110_false_names and C110_false_dir: why the name is a new one, and why __dir__ and __getattr__ are excepted."
  },
  {
   "property": "C111",
   "status": "proved",
   "theorems": [
    "Vermin.Props.C111_definitions",
    "Vermin.Props.C111_hidden",
    "Vermin.Props.C111_import",
    "Vermin.Props.C111_call",
    "Vermin.Props.C111_exact",
    "Vermin.Props.C111_exact_call",
    "Vermin.Props.C111_method",
    "Vermin.Props.C111_example",
    "Vermin.Props.C111_witness"
   ],
   "note": "Escapes says which definitions outlast their part. Whether the values of keyword arguments are looked at depends on the calls around, so that definitions in them may or may not count; C111_exact and C111_exact_call exclude them (NoneInside). C111_method and C111_witness: what a method defines for itself hides modules and functions of the same name in the whole program, a defect."
  },
  {
   "property": "C112",
   "status": "partial",
   "theorems": [
    "Vermin.Props.C112_findings_partial",
    "Vermin.Props.C112_marks_partial",
    "Vermin.Props.C112_witness",
    "Vermin.Props.C112_false_unnamed"
   ],
   "note": "Missing: marked statements with directives of strftime or bytes, type codes, yield, await, or an ellipsis in a slice. Definitions in the marked statements are covered if they do not outlast them, as of with, for, lambdas and comprehensions (the example marks with f(a) as b: pass). It is false for statements whose definitions outlast them (C89_false_comments), and for calls as in f()() (C112_false_unnamed: at such a call the function around is taken off the stack, so that marking it reveals a keyword argument); these are excluded by Silent."
  },
  {
   "property": "C12",
   "status": "proved",
   "theorems": [
    "Vermin.Props.C12_modules",
    "Vermin.Props.C12_members",
    "Vermin.Props.C12_kwargs",
    "Vermin.Props.C12_small",
    "Vermin.Props.C12_encodings"
   ],
   "note": "All tables generated from rules.py; every entry, all sets of backports."
  },
  {
   "property": "C13",
   "status": "proved",
   "theorems": [
    "Vermin.Props.C13_modules_nodup",
    "Vermin.Props.C13_members_nodup",
    "Vermin.Props.C13_kwargs_nodup",
    "Vermin.Props.C13_lookup",
    "Vermin.Props.C13_small"
   ],
   "note": "Dict displays as left-to-right insertion; distinct keys by a numbering of the keys."
  },
  {
   "property": "C14",
   "status": "proved",
   "theorems": [
    "Vermin.Props.C14_backports_never_raise",
    "Vermin.Props.C14_typing_extensions"
   ],
   "note": "All tables, all pairs of nested backport sets; the exception is witnessed."
  },
  {
   "property": "C15",
   "status": "proved",
   "theorems": [
    "Vermin.Props.C15_bpv_last_enabled",
    "Vermin.Props.C15_table_order",
    "Vermin.Props.C15_versions_ascending",
    "Vermin.Props.C15_unversioned_first"
   ],
   "note": "bpv picks the last enabled variant in the table; table order facts."
  },
  {
   "property": "C16",
   "status": "partial",
   "theorems": [
    "Vermin.Props.C16_false",
    "Vermin.Props.C16_encodings_partial",
    "Vermin.Props.C16_exact",
    "Vermin.Props.C16_listed"
   ],
   "note": "False: four keys lack the comma, so any substring of them matches. Proved: listed names always match, exact matching for texts longer than five characters, and (C16_exact) for all texts exactly what they match."
  },
  {
   "property": "C17",
   "status": "proved",
   "theorems": [
    "Vermin.Props.C17_overall_minimum",
    "Vermin.Props.C17_order_independent",
    "Vermin.Props.C17_conflict_order",
    "Vermin.Props.C17_accepted",
    "Vermin.Props.C17_chosen"
   ],
   "note": "Mutual: incompatibilities ignored, or no 2-only file together with a 3-only file. Otherwise the result depends on the order (C17_conflict_order)."
  },
  {
   "property": "C18",
   "status": "partial",
   "theorems": [
    "Vermin.Props.C18_delivered_prefix",
    "Vermin.Props.C18_delivered_all",
    "Vermin.Props.C18_parallel_sequential_partial",
    "Vermin.Props.C18_schedule_independent",
    "Vermin.Props.C18_false_on_errors",
    "Vermin.Props.C18_detection",
    "Vermin.Props.C18_exact",
    "Vermin.Props.C18_runtime"
   ],
   "note": "The reorder buffer of multiprocessing.Pool.imap delivers in submission order for every schedule; path detection is therefore independent of processes and schedules (C18_detection). For files, equality with one process holds when no file raises; it is false when one raises RuntimeError/RecursionError (C18_false_on_errors). C18_exact: they differ exactly when a file raises RuntimeError and the files before it have left a trace."
  },
  {
   "property": "C19",
   "status": "proved",
   "theorems": [
    "Vermin.Props.C19_incompatible_iff",
    "Vermin.Props.C19_minimum_kept",
    "Vermin.Props.C19_minimum_combined"
   ],
   "note": "For files that did not raise."
  },
  {
   "property": "C20",
   "status": "partial",
   "theorems": [
    "Vermin.Props.C20_false",
    "Vermin.Props.C20_partial",
    "Vermin.Props.C20_mutual_partial",
    "Vermin.Props.C66_certified",
    "Vermin.Props.C20_named_partial",
    "Vermin.Props.C66_certified_or_named",
    "Vermin.Props.C20_exact",
    "Vermin.Props.C20_exact_witness"
   ],
   "note": "False in general: a file conflicting with earlier ones is left out and does not influence the exit code (C20_false). Proved for collections without such conflicts and whenever incompatibilities are ignored, also for the whole program (C66_certified). For all collections: each file is satisfied by the targets or named as incompatible (C20_named_partial, C66_certified_or_named). C20_exact: for all collections, exactly which files count (Spec.Chosen) and when the exit code is 0."
  },
  {
   "property": "C21",
   "status": "proved",
   "theorems": [
    "Vermin.Props.C21_range",
    "Vermin.Props.C21_order_independent"
   ],
   "note": "For files that did not raise."
  },
  {
   "property": "C22",
   "status": "proved",
   "theorems": [
    "Vermin.Props.C22_comments",
    "Vermin.Props.C22_witness"
   ],
   "note": "over every token stream whose comment tokens begin with #; tokenizer itself is an input"
  },
  {
   "property": "C23",
   "status": "proved",
   "theorems": [
    "Vermin.Props.C23_syntax_error",
    "Vermin.Props.C23_only",
    "Vermin.Props.C23_witness",
    "Vermin.Props.C23_message",
    "Vermin.Props.C23_message_witness"
   ],
   "note": "the syntax error (message, text) is an input; regex of type aliases is specified by a decomposition of the text; ASCII \\w"
  },
  {
   "property": "C24",
   "status": "partial",
   "theorems": [
    "Vermin.Props.C24_partial",
    "Vermin.Props.C24_analyse_partial",
    "Vermin.Props.C24_detect_partial",
    "Vermin.Props.C24_witness",
    "Vermin.Props.C24_false_class",
    "Vermin.Props.C24_false_return"
   ],
   "note": "Dropping marked statements and clauses of the gated kinds, at any depth outside class bodies, leaves the visitor's final state, the results and the detected minimum unchanged. The full claim is false of the code: marked statements directly in a class body are visited a second time without the check (C24_false_class), and statements without the check, like return, ignore the mark (C24_false_return)."
  },
  {
   "property": "C25",
   "status": "proved",
   "theorems": [
    "Vermin.Props.C25_balanced",
    "Vermin.Props.C25_scopes",
    "Vermin.Props.C25_function",
    "Vermin.Props.C25_witness"
   ],
   "note": "Depth, loop counters, finally contexts and user definitions of scopes are restored after every visit that returns."
  },
  {
   "property": "C26",
   "status": "proved",
   "theorems": [
    "Vermin.Props.C26_accumulates",
    "Vermin.Props.C26_witness"
   ],
   "note": "Every finding is kept by any visit; lists are extended at the end only."
  },
  {
   "property": "C27",
   "status": "partial",
   "theorems": [
    "Vermin.Props.C27_definitions_partial",
    "Vermin.Props.C27_witness",
    "Vermin.Props.C27_false_for",
    "Vermin.Props.C27_false_relative"
   ],
   "note": "Definitions by def, class, import as, assignments and named expressions outside scoped statements. The full claim is false of loop targets and relative imports (witnesses)."
  },
  {
   "property": "C28",
   "status": "proved",
   "theorems": [
    "Vermin.Props.C28_excluded",
    "Vermin.Props.C28_requirements",
    "Vermin.Props.C28_witness"
   ],
   "note": ""
  },
  {
   "property": "C29",
   "status": "partial",
   "theorems": [
    "Vermin.Props.C29_features_partial",
    "Vermin.Props.C29_findings",
    "Vermin.Props.C29_traced",
    "Vermin.Props.C29_flags",
    "Vermin.Props.C29_learnt",
    "Vermin.Props.C29_witness",
    "Vermin.Props.C29_false_withParentheses",
    "Vermin.Props.C29_ruled",
    "Vermin.Props.C29_witness_ruled"
   ],
   "note": "All features except parenthesised with statements come from a construct of their kind; the parenthesis test works on the text and the full claim is false of it (witness). C29_flags: the construct is not on a marked line, and what it depends on is what the program says. C29_traced: all other findings are due to nodes of the program, together with what the program itself says about names. C29_ruled: members and decorators are recorded only if there are rules for them."
  },
  {
   "property": "C30",
   "status": "partial",
   "theorems": [
    "Vermin.Props.C30_reported_partial",
    "Vermin.Props.C30_visit",
    "Vermin.Props.C30_witness",
    "Vermin.Props.C30_witness_passed",
    "Vermin.Props.C30_false_await",
    "Vermin.Props.C30_false_asyncGenerator",
    "Vermin.Props.C30_false_literal",
    "Vermin.Props.C30_false_keyword",
    "Vermin.Props.C30_false_selfDoc_call",
    "Vermin.Props.C30_false_selfDoc_comprehension",
    "Vermin.Props.C30_false_dict"
   ],
   "note": "36 of the language features, whose constructs are recognised by themselves; the others are the matter of C70. Parts in values of keyword arguments are included (Spec.Seen) if the function that is called is an attribute a.b.c or an undefined name. False of await in elements of comprehensions, of generators that await in a clause only, of Literal parameters beside an annotated result, and of values of keyword arguments of functions the program defines (C30_false_*). Also false of self-documenting f-strings with calls of several arguments or comprehensions, and of dictionary unions with results of dotted calls."
  },
  {
   "property": "C31",
   "status": "partial",
   "theorems": [
    "Vermin.Props.C31_documented_partial",
    "Vermin.Props.C31_format27",
    "Vermin.Props.C31_complete",
    "Vermin.Props.C31_false_format27"
   ],
   "note": "all features but automatically numbered format fields, which Python 3 has since 3.1 while 3.0 is enforced (C31_false_format27)"
  },
  {
   "property": "C32",
   "status": "proved",
   "theorems": [
    "Vermin.Props.C32_satisfies",
    "Vermin.Props.C32_parts",
    "Vermin.Props.C32_raises",
    "Vermin.Props.C32_raises_std",
    "Vermin.Props.C32_witness"
   ],
   "note": "for arbitrary tables; raising additionally needs violations mode to have targets and encodings to be strings (else other exceptions)"
  },
  {
   "property": "C33",
   "status": "proved",
   "theorems": [
    "Vermin.Props.C33_detect",
    "Vermin.Props.C33_findings",
    "Vermin.Props.C33_witness",
    "Vermin.Props.C33_needs_targets"
   ],
   "note": "For configurations whose output can be produced (violations mode has targets, parsable mode has a printable path); otherwise the run crashes instead (C33_needs_targets)."
  },
  {
   "property": "C34",
   "status": "partial",
   "theorems": [
    "Vermin.Props.C34_partial",
    "Vermin.Props.C34_detect_partial",
    "Vermin.Props.C34_witness",
    "Vermin.Props.C34_false_parameter",
    "Vermin.Props.C34_false_class",
    "Vermin.Props.C34_false_final"
   ],
   "note": "Replacing the annotations of function results and of variables, at any depth outside class bodies, leaves the final state and the detected minimum unchanged without --eval-annotations. The full claim is false of the code: parameter annotations are always visited, annotations directly in a class body are visited the second time, and Final/Literal are recognised by name (three counterexamples)."
  },
  {
   "property": "C35",
   "status": "partial",
   "theorems": [
    "Vermin.Props.C35_partial",
    "Vermin.Props.C35_reported_partial",
    "Vermin.Props.C35_witness",
    "Vermin.Props.C35_false",
    "Vermin.Props.C35_without",
    "Vermin.Props.C35_without_witness"
   ],
   "note": "With --eval-annotations 'x: T = v' ends in the state of 'x = v' plus the annotation features. Without it the claim is false of the code: the value is not visited (C35_false). C35_without: what is taken from it instead, namely only the type."
  },
  {
   "property": "C36",
   "status": "partial",
   "theorems": [
    "Vermin.Props.C36_visit",
    "Vermin.Props.C36_detect_partial",
    "Vermin.Props.C36_program_partial",
    "Vermin.Props.C36_witness",
    "Vermin.Props.C36_false_strftime",
    "Vermin.Props.C36_false_annotation",
    "Vermin.Props.C36_false_fstring",
    "Vermin.Props.C36_false_encoding",
    "Vermin.Props.C36_fatal",
    "Vermin.Props.C36_fatal_detect",
    "Vermin.Props.C36_fatal_encoding",
    "Vermin.Props.C36_fatal_encoding_detect",
    "Vermin.Props.C36_fatal_witness",
    "Vermin.Props.C36_fatal_encoding_witness"
   ],
   "note": "Proved for all parsed trees outside the crashing constructs, which are shown to crash (so the property as stated is false of the code): x.strftime(1), complex numbers in parameter annotations, ** in dicts of f-strings with fstring-self-doc, constants other than strings as codecs encodings. All conditions are on the program (C36_program_partial). Conversely (C36_fatal, C36_fatal_encoding) every program in which such a construct is looked at has no minimum versions."
  },
  {
   "property": "C37",
   "status": "partial",
   "theorems": [
    "Vermin.Props.C37_keyword",
    "Vermin.Props.C37_from",
    "Vermin.Props.C37_renamed",
    "Vermin.Props.C37_method",
    "Vermin.Props.C37_only",
    "Vermin.Props.C37_witness_keyword",
    "Vermin.Props.C37_witness_from",
    "Vermin.Props.C37_witness_renamed",
    "Vermin.Props.C37_witness_method",
    "Vermin.Props.C37_false_outer",
    "Vermin.Props.C37_false_unnamed",
    "Vermin.Props.C37_false_renamed",
    "Vermin.Props.C37_passed",
    "Vermin.Props.C37_witness_passed"
   ],
   "note": "Triggered: proved for calls of names and attributes (plain, from-imported, of renamed modules, methods of variables) without calls of unnamed expressions inside; false with them and for from-imports with a new name (witnesses). Only: every recorded pair comes from a keyword inside a call of that function; that the call is the innermost one is false (witness f(g(k=1)))."
  },
  {
   "property": "C38",
   "status": "proved",
   "theorems": [
    "Vermin.Props.C38_repeat",
    "Vermin.Props.C38_once",
    "Vermin.Props.C38_witness",
    "Vermin.Props.C38_false_visits",
    "Vermin.Props.C38_output",
    "Vermin.Props.C38_output_witness"
   ],
   "note": "any number of calls; C38_false_visits shows the excluded case"
  },
  {
   "property": "C39",
   "status": "partial",
   "theorems": [
    "Vermin.Props.C39_order_partial",
    "Vermin.Props.C39_set_partial",
    "Vermin.Props.C39_plain",
    "Vermin.Props.C39_false_collision",
    "Vermin.Props.C39_witness",
    "Vermin.Props.C39_exact",
    "Vermin.Props.C39_witness_exact"
   ],
   "note": "in full for the default format up to verbosity 2 and for visits; with key sorting only when the key separates the lines, the additive hash collides on anagrams (C39_false_collision). C39_exact: for lines without line feeds the text is reproducible exactly if the key tells all lines apart."
  },
  {
   "property": "C40",
   "status": "partial",
   "theorems": [
    "Vermin.Props.C40_default_partial",
    "Vermin.Props.C40_parsable_partial",
    "Vermin.Props.C40_default_false",
    "Vermin.Props.C40_line_order_partial",
    "Vermin.Props.C40_floats",
    "Vermin.Props.C40_float_default",
    "Vermin.Props.C40_float_parsable",
    "Vermin.Props.rounding_binary64",
    "Vermin.Props.C40_float_witness",
    "Vermin.Props.C40_float_false",
    "Vermin.Props.C40_rounding",
    "Vermin.Props.C40_exact",
    "Vermin.Props.C40_exact_lines",
    "Vermin.Props.C40_unplaced",
    "Vermin.Props.C40_exact_witness"
   ],
   "note": "False for columns from 1000 on (C40_default_false, C40_float_false); proved for columns below 1000. The theorems about exact keys carry over to the floats of the code (C40_floats, with rounding of IEEE 754: rounding_binary64) for lines below 2^20. C40_exact: for all positions, lines are ordered by 1000 * line + column and then by the weight of the message."
  },
  {
   "property": "C41",
   "status": "proved",
   "theorems": [
    "Vermin.Props.C41_violations",
    "Vermin.Props.C41_all",
    "Vermin.Props.C41_lines",
    "Vermin.Props.C41_witness"
   ],
   "note": "targets with distinct majors, as the property says"
  },
  {
   "property": "C42",
   "status": "partial",
   "theorems": [
    "Vermin.Props.C42_exact_partial",
    "Vermin.Props.C42_witness_exact",
    "Vermin.Props.C42_sound_partial",
    "Vermin.Props.C42_complete_partial",
    "Vermin.Props.C42_witness",
    "Vermin.Props.C42_witness_not",
    "Vermin.Props.C42_false_else",
    "Vermin.Props.C42_false_tryStar",
    "Vermin.Props.C42_false_class"
   ],
   "note": "C42_exact_partial says exactly when it is reported, for every program in which `continue` is a statement (as the grammar has it): which `try` statements and which `continue` come up, through unmarked parts, class bodies a second time, and not by way of a loop. The claim as stated is false for else branches of loops, for except* and for loops directly in class bodies (shown); soundness and completeness relative to the claim's own notion are the other two theorems."
  },
  {
   "property": "C43",
   "status": "proved",
   "theorems": [
    "Vermin.Props.C43_split",
    "Vermin.Props.C43_one_line",
    "Vermin.Props.C43_injective",
    "Vermin.Props.C43_colon_in_path"
   ],
   "note": ""
  },
  {
   "property": "C44",
   "status": "proved",
   "theorems": [
    "Vermin.Props.C44_exact",
    "Vermin.Props.C44_error",
    "Vermin.Props.C44_terminates",
    "Vermin.Props.C44_rounds",
    "Vermin.Props.C44_main",
    "Vermin.Props.C44_parsable",
    "Vermin.Props.C44_cycle"
   ],
   "note": "Exact specification of the files found, for every file system; detection ends for folders of finite depth. C44_cycle: with --scan-symlink-folders a cycle of links is followed forever (in the model; the kernel ends it at ELOOP)."
  },
  {
   "property": "C45",
   "status": "partial",
   "theorems": [
    "Vermin.Props.C45_relative_partial",
    "Vermin.Props.C45_false",
    "Vermin.Props.C45_dots",
    "Vermin.Props.C45_exact"
   ],
   "note": "False for \".\" and \"./x\": the children are \"./a.py\", whose first character hides them (C45_false). Holds for every file system when hidden files are scanned or no argument starts with a dot. C45_exact: otherwise exactly the arguments that start with a dot are lost, and the files are those of the absolute scan of the others."
  },
  {
   "property": "C46",
   "status": "proved",
   "theorems": [
    "Vermin.Props.C46_python",
    "Vermin.Props.C46_not_python",
    "Vermin.Props.C46_contents",
    "Vermin.Props.C46_ds_store"
   ],
   "note": "For every path and contents. C46_ds_store: the listed extension \"DS_Store\" never matches because the path is lower-cased first."
  },
  {
   "property": "C47",
   "status": "proved",
   "theorems": [
    "Vermin.Props.C47_found_iff",
    "Vermin.Props.C47_terminates",
    "Vermin.Props.C47_boundary",
    "Vermin.Props.C47_crash"
   ],
   "note": "folders are lists of components; exceptions of configparser other than ParsingError abort the search (C47_crash)"
  },
  {
   "property": "C48",
   "status": "proved",
   "theorems": [
    "Vermin.Props.C48_override",
    "Vermin.Props.C48_override_exact"
   ],
   "note": "values of the settings; sharing of containers is not part of this statement"
  },
  {
   "property": "C49",
   "status": "proved",
   "theorems": [
    "Vermin.Props.C49_parsed",
    "Vermin.Props.C49_rejects",
    "Vermin.Props.C49_accepts"
   ],
   "note": "input is what configparser has read (INI syntax not modelled)"
  },
  {
   "property": "C50",
   "status": "partial",
   "theorems": [
    "Vermin.Props.C50_shift",
    "Vermin.Props.C50_paths_partial",
    "Vermin.Props.C50_false",
    "Vermin.Props.C50_inert",
    "Vermin.Props.C50_misuse"
   ],
   "note": "False with --no-config-file: the word is not counted among the options (arguments.py:231), so that each of its occurrences moves the first path one place to the left into the options (C50_shift; C50_false is `--no-config-file --exclude email a.py`, which analyses `email` as well). Proved for all command lines without it: options alone or with a value that is no option word, then paths that are no option words; misuse witnesses show the shift of the path list."
  },
  {
   "property": "C51",
   "status": "proved",
   "theorems": [
    "Vermin.Props.C51_switch"
   ],
   "note": "all argument lists; requesting the parsable format on the command line overrules ignore and tips as documented"
  },
  {
   "property": "C52",
   "status": "proved",
   "theorems": [
    "Vermin.Props.C52_constraints",
    "Vermin.Props.C52_program"
   ],
   "note": "all argument lists and config files"
  },
  {
   "property": "C53",
   "status": "partial",
   "theorems": [
    "Vermin.Props.C53_false",
    "Vermin.Props.C53_parsable_partial",
    "Vermin.Props.C53_versions",
    "Vermin.Props.C53_exact"
   ],
   "note": "False: with the format from a config file, -v, --no-ignore and --show-tips undo the settings. Proved when the format is requested on the command line or no such word occurs. C53_exact says exactly when they are."
  },
  {
   "property": "C54",
   "status": "proved",
   "theorems": [
    "Vermin.Props.C54_is_excluded",
    "Vermin.Props.C54_exclusions_sorted",
    "Vermin.Props.C54_forms"
   ],
   "note": "all histories of add/clear calls"
  },
  {
   "property": "C55",
   "status": "proved",
   "theorems": [
    "Vermin.Props.C55_dotted_name",
    "Vermin.Props.C55_split",
    "Vermin.Props.C55_string",
    "Vermin.Props.C55_refused"
   ],
   "note": "dotted_name on strings, ints, None and lists."
  },
  {
   "property": "C56",
   "status": "proved",
   "theorems": [
    "Vermin.Props.C56_chain",
    "Vermin.Props.C60_attribute",
    "Vermin.Props.C60_renamed",
    "Vermin.Props.C60_witness_attribute",
    "Vermin.Props.C60_witness_renamed"
   ],
   "note": "The name considered for a chain is exactly its dotted name with the head resolved, for chains of any length; it is then found as a member (C60)."
  },
  {
   "property": "C57",
   "status": "proved",
   "theorems": [
    "Vermin.Props.C57_program",
    "Vermin.Props.C57_program_witness",
    "Vermin.Props.C57_runs",
    "Vermin.Props.C57_note_majors",
    "Vermin.Props.C57_exact",
    "Vermin.Props.C57_false"
   ],
   "note": "C57_program: every run on Python 3 (the versions vermin runs on) that analyses files, also if some raise or conflict. C57_note_majors and C57_exact are about the function that makes the note, for all requirements: it is wrong only if py2 is excluded while py3 is unknown (C57_false), which runs on Python 3 never come to."
  },
  {
   "property": "C58",
   "status": "proved",
   "theorems": [
    "Vermin.Props.C58_values",
    "Vermin.Props.C58_file",
    "Vermin.Props.C58_collected",
    "Vermin.Props.C58_processes"
   ],
   "note": "For arguments whose value holds no further \"=\" (as in the code, the text between the first two \"=\" is the value)."
  },
  {
   "property": "C59",
   "status": "proved",
   "theorems": [
    "Vermin.Props.C59_import",
    "Vermin.Props.C59_from",
    "Vermin.Props.C59_witness",
    "Vermin.Props.C59_false_alias",
    "Vermin.Props.C59_modules",
    "Vermin.Props.C59_required",
    "Vermin.Props.C59_witness_modules"
   ],
   "note": "For all positions that are looked at (Reach). `import x as x` defines x by the program itself, so it is not reported (C59_false_alias)."
  },
  {
   "property": "C60",
   "status": "proved",
   "theorems": [
    "Vermin.Props.C60_call",
    "Vermin.Props.C60_attribute",
    "Vermin.Props.C60_renamed",
    "Vermin.Props.C60_from",
    "Vermin.Props.C60_module",
    "Vermin.Props.C60_variable",
    "Vermin.Props.C60_witness_call",
    "Vermin.Props.C60_witness_attribute",
    "Vermin.Props.C60_witness_renamed",
    "Vermin.Props.C60_witness_from",
    "Vermin.Props.C60_witness_module",
    "Vermin.Props.C60_witness_variable",
    "Vermin.Props.C60_members",
    "Vermin.Props.C60_required",
    "Vermin.Props.C60_witness_members"
   ],
   "note": "Imports and assignments are statements of the module; uses are anywhere after them."
  },
  {
   "property": "C61",
   "status": "proved",
   "theorems": [
    "Vermin.Props.C61_novermin",
    "Vermin.Props.C61_annotations",
    "Vermin.Props.C61_backports",
    "Vermin.Props.C61_not_python",
    "Vermin.Props.C61_incompatible",
    "Vermin.Props.C61_result",
    "Vermin.Props.C61_default_result",
    "Vermin.Props.C61_witness",
    "Vermin.Props.C61_column"
   ],
   "note": "For every list of file results."
  },
  {
   "property": "C62",
   "status": "proved",
   "theorems": [
    "Vermin.Props.C62_report",
    "Vermin.Props.C62_minimum",
    "Vermin.Props.C62_annotations",
    "Vermin.Props.C62_comments",
    "Vermin.Props.C62_false",
    "Vermin.Props.C62_witness"
   ],
   "note": "The lines of the report are exactly those of the specification ReportLine, given that a combined minimum that excludes Python 2 knows a version of Python 3 (otherwise false: C62_false), that no unknown version is in the range and that the possible backports are known ones without repetition."
  },
  {
   "property": "C63",
   "status": "proved",
   "theorems": [
    "Vermin.Props.C63_result",
    "Vermin.Props.C63_incompatible",
    "Vermin.Props.C63_conflict",
    "Vermin.Props.C63_unparsed",
    "Vermin.Props.C63_bad_path",
    "Vermin.Props.C63_detect",
    "Vermin.Props.C63_witness",
    "Vermin.Props.C63_witness_conflict"
   ],
   "note": "C63_conflict assumes that encodings found are strings and that violations mode has targets (otherwise the analysis crashes: C36)."
  },
  {
   "property": "C64",
   "status": "proved",
   "theorems": [
    "Vermin.Props.C64_files",
    "Vermin.Props.C64_run",
    "Vermin.Props.C64_quiet",
    "Vermin.Props.C64_quiet_violations",
    "Vermin.Props.C64_quiet_code",
    "Vermin.Props.C64_witness"
   ],
   "note": "Files that raise are excluded here (see C18, C65); the report conditions of C62 are derived from what analysing files yields."
  },
  {
   "property": "C65",
   "status": "proved",
   "theorems": [
    "Vermin.Props.C65_no_crash",
    "Vermin.Props.C65_empty_path"
   ],
   "note": "End to end, over the model of main. Files that cannot be analysed are those of C36_false_*. KeyboardInterrupt, memory and recursion limits, and failures of printing are not modelled."
  },
  {
   "property": "C66",
   "status": "proved",
   "theorems": [
    "Vermin.Props.C66_certified",
    "Vermin.Props.C66_report",
    "Vermin.Props.C66_exit",
    "Vermin.Props.C66_witness",
    "Vermin.Props.C66_certified_or_named"
   ],
   "note": "End to end, over the model of main; requirements are the findings of the visit of each file (C29, C30, C32 say what these are). On Python 3, absolute working directory. Conflicting files are excluded: C20_false. Two targets of one major: C09_false. Pessimistic syntax errors in violations mode are excluded."
  },
  {
   "property": "C67",
   "status": "proved",
   "theorems": [
    "Vermin.Props.C67_lines",
    "Vermin.Props.C67_explains",
    "Vermin.Props.C67_witness",
    "Vermin.Props.C67_false_long",
    "Vermin.Props.C67_false_constants"
   ],
   "note": "C67_lines: the lines are those of a list of entries, and Listing says which entries there are (found, features, rules, nodes). The hypotheses SetOrder (order is a permutation) and, in violations mode, at most one target per major version hold for every run. C67_explains is the last sentence; C67_false_* show that its exceptions are needed."
  },
  {
   "property": "C68",
   "status": "proved",
   "theorems": [
    "Vermin.Props.C68_default",
    "Vermin.Props.C68_note",
    "Vermin.Props.C67_text",
    "Vermin.Props.C68_summary",
    "Vermin.Props.C68_witness"
   ],
   "note": "The parsable lines themselves are C43. C67_text: the exception [\"\"] is a text of one empty line."
  },
  {
   "property": "C69",
   "status": "partial",
   "theorems": [
    "Vermin.Props.C69_lines_partial",
    "Vermin.Props.C69_witness",
    "Vermin.Props.C69_false"
   ],
   "note": "False of the code: many methods print before the line of their node is remembered, e.g. `nonlocal` is shown with the line of the statement visited before (C69_false). Proved: for features that are not roaming (in Lemmas/Traversal.lean) the line is that of the construct or of a decorator; table findings have the line of a node in the construct, with keyword arguments excepted."
  },
  {
   "property": "C70",
   "status": "proved",
   "theorems": [
    "Vermin.Props.C70_reported",
    "Vermin.Props.C70_module",
    "Vermin.Props.C70_features",
    "Vermin.Props.C70_witness",
    "Vermin.Props.C70_witness_types",
    "Vermin.Props.C70_witness_typed",
    "Vermin.Props.C70_witness_selfDoc",
    "Vermin.Props.C70_witness_dicts"
   ],
   "note": "Spec/Settled.lean states the constructs and what settles them, including unions and generic types of classes and variables that are given types; with the features of C30 these are all but continue in finally (C42) and the print statement (C63). Self-documenting expressions are those whose text is written out as in Spec/Written.lean; dictionaries are displays, calls, variables, lambdas and items."
  },
  {
   "property": "C71",
   "status": "proved",
   "theorems": [
    "Vermin.Props.C71_recorded",
    "Vermin.Props.C71_required",
    "Vermin.Props.C71_directives",
    "Vermin.Props.C71_match",
    "Vermin.Props.C71_witness"
   ],
   "note": "Completeness of the remaining findings; C29_findings and C29_traced give the converse. Names of functions and decorators are resolved through imports among the statements before (Spec.Stands)."
  },
  {
   "property": "C72",
   "status": "proved",
   "theorems": [
    "Vermin.Props.C72_placed",
    "Vermin.Props.C72_long",
    "Vermin.Props.C72_ellipsis",
    "Vermin.Props.C72_dir",
    "Vermin.Props.C72_getattr",
    "Vermin.Props.C72_after",
    "Vermin.Props.C72_member",
    "Vermin.Props.C72_kwarg",
    "Vermin.Props.C72_deco",
    "Vermin.Props.C72_long_after",
    "Vermin.Props.C72_parameter",
    "Vermin.Props.C72_witness_used",
    "Vermin.Props.C72_witness_after",
    "Vermin.Props.C72_witness_long",
    "Vermin.Props.C72_witness_parameter",
    "Vermin.Props.C72_witness_dir",
    "Vermin.Props.C72_witness_nodir",
    "Vermin.Props.C72_witness_ellipsis"
   ],
   "note": "Spec/Places.lean says what is certain at a place (Located). C72_placed is the general statement; the others are consequences for statements of modules, parameters, slices and functions of modules."
  },
  {
   "property": "C73",
   "status": "partial",
   "theorems": [
    "Vermin.Props.C73_parts",
    "Vermin.Props.C73_spelt_partial",
    "Vermin.Props.C73_literal_partial",
    "Vermin.Props.C73_found_partial",
    "Vermin.Props.C73_walk",
    "Vermin.Props.C73_targets",
    "Vermin.Props.C73_witness_targets",
    "Vermin.Props.C73_witness",
    "Vermin.Props.C73_witness_keyword",
    "Vermin.Props.C73_false_subscript",
    "Vermin.Props.C73_false_element",
    "Vermin.Props.C73_false_argument",
    "Vermin.Props.C73_false_literal"
   ],
   "note": "False in general (witnesses): names in arguments and elements become a part of the name, attributes of subscripts are taken for those of the index. Proved when arguments and elements contain no attributes, calls or displays; and for all attributes that the names are those of parts of the expression. C73_walk and C73_targets state the breadth-first walk itself, for all expressions."
  },
  {
   "property": "C74",
   "status": "proved",
   "theorems": [
    "Vermin.Props.C74_message",
    "Vermin.Props.C74_right",
    "Vermin.Props.C74_program",
    "Vermin.Props.C74_witness",
    "Vermin.Props.C74_witness_named"
   ],
   "note": "Of one file. `Described` says how findings are called, `ListLit` that several are shown as a list of literals."
  },
  {
   "property": "C75",
   "status": "partial",
   "theorems": [
    "Vermin.Props.C75_parsable_partial",
    "Vermin.Props.C75_syntax",
    "Vermin.Props.C75_progress",
    "Vermin.Props.C75_folders",
    "Vermin.Props.C75_witness",
    "Vermin.Props.C75_witness_syntax",
    "Vermin.Props.C75_witness_progress",
    "Vermin.Props.C75_false_no_files",
    "Vermin.Props.C75_false_failed",
    "Vermin.Props.C75_false_visits",
    "Vermin.Props.C75_false_folder"
   ],
   "note": "False without files, for files that cannot be read (their text has no line end), for folders that cannot be listed, and with --dump (witnesses). Proved for all other runs with the settings of the parsable format (C53). Messages about exclusion files that cannot be read are printed in every format as well (C77_accepted)."
  },
  {
   "property": "C76",
   "status": "proved",
   "theorems": [
    "Vermin.Props.C76_patterns",
    "Vermin.Props.C76_lineCol",
    "Vermin.Props.C76_parsable",
    "Vermin.Props.C76_versioned",
    "Vermin.Props.C76_directives",
    "Vermin.Props.C76_format27",
    "Vermin.Props.C76_withParen",
    "Vermin.Props.C76_typeAlias",
    "Vermin.Props.C76_targets",
    "Vermin.Props.C76_trim",
    "Vermin.Props.C76_sound",
    "Vermin.Props.C76_complete",
    "Vermin.Props.C76_proper",
    "Vermin.Props.C76_witness"
   ],
   "note": "The syntax of patterns and matching with backtracking are modelled (Model/Regex.lean), the patterns are the literals of the source. \\d and \\w are restricted to ASCII."
  },
  {
   "property": "C77",
   "status": "proved",
   "theorems": [
    "Vermin.Props.C77_refused",
    "Vermin.Props.C77_raised",
    "Vermin.Props.C77_asked",
    "Vermin.Props.C77_accepted",
    "Vermin.Props.C77_file",
    "Vermin.Props.C77_told",
    "Vermin.Props.C77_links"
   ],
   "note": "Mistakes and their texts are given by Spec/Complaints. C77_refused and C77_accepted assume that config files that can be used print nothing, which C77_file proves of the reading of files; C77_told combines them. What configparser reads, texts of exceptions and errors of opening files are inputs."
  },
  {
   "property": "C78",
   "status": "proved",
   "theorems": [
    "Vermin.Props.C78_words",
    "Vermin.Props.C78_values",
    "Vermin.Props.C78_default",
    "Vermin.Props.C78_names",
    "Vermin.Props.C78_files",
    "Vermin.Props.C78_extensions",
    "Vermin.Props.C78_aligned",
    "Vermin.Props.C78_aligned_witness"
   ],
   "note": "Spec/Help reads the text of the help (Model/Usage, copied from the source). That some option is documented is not that its description is right: descriptions are not interpreted, except for forms, defaults, lists of names and extensions."
  },
  {
   "property": "C79",
   "status": "partial",
   "theorems": [
    "Vermin.Props.C79_ints",
    "Vermin.Props.C79_length",
    "Vermin.Props.C79_negative",
    "Vermin.Props.C79_whole",
    "Vermin.Props.C79_half",
    "Vermin.Props.C79_near_partial",
    "Vermin.Props.C79_released",
    "Vermin.Props.C79_ten",
    "Vermin.Props.C79_false",
    "Vermin.Props.C79_conflict",
    "Vermin.Props.C79_conflict_witness"
   ],
   "note": "False of the code for floats: int((f - major) * 10) cuts off after rounding, so 2.3, 2.4, 3.3, 3.4 and 3.8 are taken for the version before (C79_released has all released versions that floats can write; C79_near_partial shows it is never off by more than one minor). Ints, X.0 and X.5 are right. Vermin itself passes tuples only. Infinities, NaN and negative ints are not modelled."
  },
  {
   "property": "C80",
   "status": "proved",
   "theorems": [
    "Vermin.Props.C80_ends",
    "Vermin.Props.C80_code",
    "Vermin.Props.C80_told",
    "Vermin.Props.C80_verdict",
    "Vermin.Props.C80_exception"
   ],
   "note": "Model/Console composes argument parsing, its messages, the help, path detection, analysis and report. C80_verdict and C80_exception need files that can be analysed and are not known to exclude each other (Orderly, as C66); C80_ends, C80_code and C80_told do not. Output before an exception of path detection or analysis is not modelled; KeyboardInterrupt is not modelled."
  },
  {
   "property": "C81",
   "status": "partial",
   "theorems": [
    "Vermin.Props.C81_messages",
    "Vermin.Props.C81_named_partial",
    "Vermin.Props.C81_dropped",
    "Vermin.Props.C81_skipped",
    "Vermin.Props.C81_witness",
    "Vermin.Props.C81_false"
   ],
   "note": "False for named paths that do not exist or are neither files nor folders, and for ignored or hidden ones: they are dropped, and the run is the same as without them (C81_dropped, witness C81_false with exit code 0). Proved for all other named paths (C81_named_partial). Which messages are printed is exact (C81_messages, C81_skipped)."
  },
  {
   "property": "C82",
   "status": "partial",
   "theorems": [
    "Vermin.Props.C82_uninterrupted",
    "Vermin.Props.C82_aborts",
    "Vermin.Props.C82_several",
    "Vermin.Props.C82_visiting",
    "Vermin.Props.C82_reading",
    "Vermin.Props.C82_clean_partial",
    "Vermin.Props.C82_false",
    "Vermin.Props.C82_witness"
   ],
   "note": "False with one process: an interrupt while a file is read is caught, the file is called incompatible and the run goes on, with exit code 0 if the other files meet the targets (C82_reading, C82_false); while a file is visited, the run ends with a failed assertion later (C82_visiting). Proved for all other moments, and with several processes for interrupts of the main process."
  },
  {
   "property": "C83",
   "status": "proved",
   "theorems": [
    "Vermin.Props.C83_found",
    "Vermin.Props.C83_due",
    "Vermin.Props.C83_certified",
    "Vermin.Props.C83_certified_or_named",
    "Vermin.Props.C83_reported",
    "Vermin.Props.C83_reason",
    "Vermin.Props.C83_blamed",
    "Vermin.Props.C83_witness"
   ],
   "note": "Composed from C30, C37, C42, C59, C60, C70, C71 (completeness of findings), C29, C72 (their causes), C31 (documented versions) and C66 (runs). What counts as evident is Demands (Props/EndToEnd): parts that are looked at and not marked, whose meaning the source settles; format27 is left out (C31_false_format27)."
  },
  {
   "property": "C84",
   "status": "proved",
   "theorems": [
    "Vermin.Props.C84_settings",
    "Vermin.Props.C53_exact"
   ],
   "note": "LastFormat is in Props/Arguments, TargetText in Spec/Targets; the rest of the specification is at the top of Props/ArgSettings. C53_exact says when the settings of the parsable format are in effect."
  },
  {
   "property": "C85",
   "status": "proved",
   "theorems": [
    "Vermin.Props.C85_relaxed",
    "Vermin.Props.C85_visit",
    "Vermin.Props.C85_false_keywords",
    "Vermin.Props.C85_witness"
   ],
   "note": "Relaxation (Props/Relaxed) says which configurations are compared. C85_false_keywords and C14_typing_extensions show that both exceptions are necessary."
  },
  {
   "property": "C86",
   "status": "proved",
   "theorems": [
    "Vermin.Props.C86_order",
    "Vermin.Props.C86_paths",
    "Vermin.Props.C86_parse",
    "Vermin.Props.C86_witness"
   ],
   "note": "Opt.Ok says what counts as an option and its value (Props/Arguments). Paths that begin with a dash are options to the parser and are therefore excepted."
  },
  {
   "property": "C87",
   "status": "proved",
   "theorems": [
    "Vermin.Props.C87_append",
    "Vermin.Props.C87_definitions",
    "Vermin.Props.C87_false_definitions",
    "Vermin.Props.C87_witness"
   ],
   "note": "Both programs are analysed with the same text and comments. C87_false_definitions: the exception is necessary (import argparse; argparse = x)."
  },
  {
   "property": "C88",
   "status": "proved",
   "theorems": [
    "Vermin.Props.C88_findings",
    "Vermin.Props.C88_layout",
    "Vermin.Props.C88_inserted",
    "Vermin.Props.C88_comments",
    "Vermin.Props.C88_insertion",
    "Vermin.Props.C88_witness",
    "Vermin.Props.C88_false_with",
    "Vermin.Props.C88_false_comment"
   ],
   "note": "C88_false_with and C88_false_comment: the two exceptions for inserted lines are necessary (the number of lines considered after a `with` grows with its line number; an indented comment on the first line excludes that line instead of the next)."
  },
  {
   "property": "C89",
   "status": "proved",
   "theorems": [
    "Vermin.Props.C89_visit",
    "Vermin.Props.C89_loosened",
    "Vermin.Props.C89_witness",
    "Vermin.Props.C89_false_annotations",
    "Vermin.Props.C89_false_comments"
   ],
   "note": "With more features detection may raise (C36_false_fstring), hence the direction of the statement. C89_false_annotations and C89_false_comments: the same claim about --eval-annotations and about `novm` comments is false."
  },
  {
   "property": "C90",
   "status": "proved",
   "theorems": [
    "Vermin.Props.C90_members",
    "Vermin.Props.C90_kwargs",
    "Vermin.Props.C90_decorators",
    "Vermin.Props.C90_types",
    "Vermin.Props.C90_minimum",
    "Vermin.Props.C90_witness"
   ],
   "note": "The tables are checked completely, by evaluation in the kernel; sets of backports and versions are general, by lemmas."
  },
  {
   "property": "C91",
   "status": "proved",
   "theorems": [
    "Vermin.Props.C91_required",
    "Vermin.Props.C91_loosened",
    "Vermin.Props.C91_same",
    "Vermin.Props.C91_witness"
   ],
   "note": "Both runs must be orderly as for C66 (files that can be analysed and do not conflict), with at most one target per major, and not pessimistic in violations mode."
  },
  {
   "property": "C92",
   "status": "partial",
   "theorems": [
    "Vermin.Props.C92_program_partial",
    "Vermin.Props.C92_requirement_partial",
    "Vermin.Props.C92_item_partial",
    "Vermin.Props.C92_marks_partial",
    "Vermin.Props.modern_oldItem",
    "Vermin.Props.C92_false",
    "Vermin.Props.C92_false_bool",
    "Vermin.Props.C92_false_name",
    "Vermin.Props.C92_program_witness",
    "Vermin.Props.C92_witness"
   ],
   "note": "False of the code: on 3.8 the ellipsis of `x[..., 1:2]` counts as out of slices (!2, 3.0), `[{}][False]` is no dictionary, and names of attributes are made up from the nodes breadth first, so a wrapper can change their order. Proved for whole programs without these (C92_program_partial): the visits of the tree and of the one without wrappers are the same, so state, output and requirement are. Missing: trees with ExtSlice, with True or False as index, and with attributes, annotations, raised or handled expressions whose nodes come in another order."
  },
  {
   "property": "C93",
   "status": "proved",
   "theorems": [
    "Vermin.Props.C93_repr",
    "Vermin.Props.C93_same",
    "Vermin.Props.C93_lines",
    "Vermin.Props.C93_witness"
   ],
   "note": "The converse assumes that sets with the same elements are enumerated alike. Python's str.isprintable is a parameter."
  },
  {
   "property": "C94",
   "status": "proved",
   "theorems": [
    "Vermin.Props.C94_statements",
    "Vermin.Props.C94_program",
    "Vermin.Props.C94_requirement",
    "Vermin.Props.C94_witness",
    "Vermin.Props.C94_class",
    "Vermin.Props.C94_marked",
    "Vermin.Props.C94_dir"
   ],
   "note": "C94_class, C94_marked and C94_dir show that the cases left out in the statement have to be."
  },
  {
   "property": "C95",
   "status": "proved",
   "theorems": [
    "Vermin.Props.C95_strip",
    "Vermin.Props.C95_split",
    "Vermin.Props.C95_join",
    "Vermin.Props.C95_lower",
    "Vermin.Props.C95_parts",
    "Vermin.Props.C95_replace",
    "Vermin.Props.C95_lines",
    "Vermin.Props.C95_int",
    "Vermin.Props.C95_str",
    "Vermin.Props.C95_compare",
    "Vermin.Props.C95_sort",
    "Vermin.Props.C95_dict"
   ],
   "note": "About the model of the Python methods that the rest of the model is built from; that CPython has these methods as documented is part of the trusted base. str.lower() outside of ASCII is not modelled."
  },
  {
   "property": "C96",
   "status": "proved",
   "theorems": [
    "Vermin.Props.C96_file",
    "Vermin.Props.C96_search",
    "Vermin.Props.C96_program",
    "Vermin.Props.C96_witness",
    "Vermin.Props.C96_marked"
   ],
   "note": "The number of processes is 1 in both runs or in none: what happens with one process if a file raises is the matter of C18. Exclusions, patterns, backports and features are compared as sets. C96_marked: with marks, parsing comments does matter."
  },
  {
   "property": "C97",
   "status": "proved",
   "theorems": [
    "Vermin.Props.C97_counts",
    "Vermin.Props.C97_total",
    "Vermin.Props.C97_versions",
    "Vermin.Props.C97_witness"
   ],
   "note": "Version (0, 0), the unknown requirement of typing_extensions without its backport (C12), is left out of the versions covered."
  },
  {
   "property": "C98",
   "status": "proved",
   "theorems": [
    "Vermin.Props.C98_absolute",
    "Vermin.Props.C98_join",
    "Vermin.Props.C98_joined",
    "Vermin.Props.C98_base",
    "Vermin.Props.C98_extension",
    "Vermin.Props.C98_init",
    "Vermin.Props.C98_witness"
   ],
   "note": "About POSIX paths (CPython's posixpath). Two slashes at the beginning are kept, as POSIX leaves their meaning open."
  },
  {
   "property": "C99",
   "status": "proved",
   "theorems": [
    "Vermin.Props.C99_file",
    "Vermin.Props.C99_file_exact",
    "Vermin.Props.C99_detect",
    "Vermin.Props.C99_program",
    "Vermin.Props.C99_program_plain",
    "Vermin.Props.C99_witness",
    "Vermin.Props.C99_witness_run"
   ],
   "note": "An order is any function that gives a permutation of the elements, per file. The order of the lines that a key does not tell apart does depend on it (C39, C99_witness). The sets of the configuration are enumerated by its __repr__ only, which main does not use."
  }
 ]
}
