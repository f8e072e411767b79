{"id": "C01", "title": "Combined requirement is satisfied exactly by the interpreters that satisfy both", "statement": "For requirement pairs a and b, whenever combine_versions(a, b) returns r, an interpreter version satisfies r iff it satisfies a and b. Consequently the operation is commutative, associative, idempotent and has [(0,0),(0,0)] as neutral element, and the result is never lower than an argument.", "quantifier": "all pairs of minimum-version pairs, all interpreter versions, both settings of ignore_incomp", "why_tests_cant": "there are infinitely many version pairs and the law relates every triple of them", "anchors": ["vermin/utility.py: combine_versions"]}
{"id": "C02", "title": "combine_versions raises exactly on 2-only versus 3-only", "statement": "combine_versions raises InvalidVersionException iff incompatibilities are not ignored and one argument is py2-only while the other is py3-only; it never raises when ignore_incomp is set.", "quantifier": "all pairs of minimum-version pairs and both settings", "why_tests_cant": "needs every combination of None/non-None and every version value", "anchors": ["vermin/utility.py: combine_versions, __handle_incomp_versions"]}
{"id": "C03", "title": "Minimum versions do not depend on the order in which findings are combined", "statement": "Combining any finite collection of requirements, starting from nothing known, gives the same minimum versions for every order (and an InvalidVersionException for one order iff for every order); the exception occurs iff the collection contains both a py2-only and a py3-only requirement and incompatibilities are not ignored.", "quantifier": "all finite lists of rule requirements and all permutations", "why_tests_cant": "factorially many orders of unboundedly many findings", "anchors": ["vermin/source_visitor.py: SourceVisitor.minimum_versions, __add_versions_entity", "vermin/utility.py: combine_versions"]}
{"id": "C04", "title": "More findings never lower the minimum versions", "statement": "If detection succeeds on a collection of findings and on a larger one, every interpreter accepted by the larger result is accepted by the smaller one.", "quantifier": "all lists of requirements and all extensions of them", "why_tests_cant": "unbounded collections", "anchors": ["vermin/utility.py: combine_versions", "vermin/source_visitor.py: minimum_versions"]}
{"id": "C05", "title": "Version strings are unambiguous", "statement": "version_strings of a (py2, py3) pair of versions can be decoded: two different pairs never give the same text, with ', ' and with ':' as separator; ~2/~3 appears exactly for unknown and !2/!3 exactly for incompatible.", "quantifier": "all pairs of optional versions, any majors and minors", "why_tests_cant": "injectivity quantifies over pairs of inputs", "anchors": ["vermin/utility.py: version_strings, dotted_name"]}
{"id": "C06", "title": "The final report never trips version_strings' assertions", "statement": "For every (mins, unique_versions) the processor can return, printing the minimum, incompatible, range and target lines never fails an assertion; the required and incompatible lists together always have two elements, so the 'No known reason found' message is unreachable.", "quantifier": "all processor results and configurations", "why_tests_cant": "reachability over all file collections", "anchors": ["vermin/main.py: main", "vermin/utility.py: version_strings"]}
{"id": "C07", "title": "Target parsing accepts exactly versions 2.0 up to (not including) 4.0", "statement": "parse_target succeeds exactly on one or two numeric components, separated by a dot or comma, with optional trailing '-', whose value lies in [2.0, 4.0); printing a target and parsing it again gives the same exactness and version; every accepted target is in range.", "quantifier": "all strings and all versions in range", "why_tests_cant": "the set of strings is infinite", "anchors": ["vermin/utility.py: parse_target"]}
{"id": "C08", "title": "Target comparison decides the documented predicate", "statement": "compare_requirements(reqs, targets) is True iff there is at least one target, every target has a requirement of the same major version, an exact target equals it and an inexact ('-') target is not lower than it (reqs and targets having at most one version per major).", "quantifier": "all requirement and target lists", "why_tests_cant": "unbounded version values and list shapes", "anchors": ["vermin/utility.py: compare_requirements"]}
{"id": "C09", "title": "Every specified target is taken into account", "statement": "compare_requirements and violations mode honour each of the one or two configured targets, including two targets of the same major version.", "quantifier": "all target lists that can be configured", "why_tests_cant": "ranges over all pairs of targets", "anchors": ["vermin/utility.py: compare_requirements", "vermin/config.py: add_target", "vermin/source_visitor.py: __violates_target_versions"]}
{"id": "C10", "title": "Configured targets: at most two, always sorted", "statement": "After any sequence of add_target and clear_targets calls a Config holds at most two targets, in ascending version order, each of them one that was added since the last clear; a rejected call changes nothing.", "quantifier": "all histories of Config calls", "why_tests_cant": "unbounded operation histories", "anchors": ["vermin/config.py: add_target, clear_targets, targets"]}
{"id": "C11", "title": "Exit code reflects the targets", "statement": "Without --target, a completed analysis exits 0. With targets (one per major), it exits 1 iff the final minimum versions do not meet the targets, except that in violations mode an entirely inconclusive result exits 0.", "quantifier": "all processor results, targets and modes", "why_tests_cant": "the product of results, targets and modes is infinite", "anchors": ["vermin/main.py: main"]}
{"id": "C12", "title": "Rule tables only contain sane requirements, under every backport selection", "statement": "For every set of enabled backports, every module, member, kwarg, directive, typecode, codec and decorator rule has a py2 requirement in 2.0-2.7 or None and a py3 requirement in 3.0-3.12 or None, not both None; the only exception is typing_extensions without backport, which is (~2, ~3).", "quantifier": "all rules and all sets of backports", "why_tests_cant": "2^15 backport selections times 3700 rules", "anchors": ["vermin/rules.py: MOD_REQS, MOD_MEM_REQS, KWARGS_REQS, bpv, bp", "vermin/backports.py: BACKPORTS"]}
{"id": "C13", "title": "No rule is silently overridden", "statement": "No two entries of a rule table have the same key, so the table lookup returns the value written next to the key.", "quantifier": "all entries of all rule tables", "why_tests_cant": "Python dict literals silently drop duplicates", "anchors": ["vermin/rules.py: MOD_REQS, MOD_MEM_REQS, KWARGS_REQS"]}
{"id": "C14", "title": "Enabling a backport never raises a requirement", "statement": "For all sets of backports B and B' with B contained in B', each rule's requirement under B' is satisfied by every interpreter that satisfies it under B, except for the typing_extensions module.", "quantifier": "all pairs of nested backport sets and all rules", "why_tests_cant": "exponentially many backport sets", "anchors": ["vermin/rules.py: bp, bpv", "vermin/backports.py: Backports.expand_versions"]}
{"id": "C15", "title": "Backport precedence", "statement": "bpv returns the requirement of the unversioned backport if enabled, otherwise of the newest enabled versioned variant, otherwise the default; the unversioned one is never older than a versioned one.", "quantifier": "all sets of backports", "why_tests_cant": "exponentially many selections", "anchors": ["vermin/rules.py: bpv", "vermin/backports.py: expand_versions, version_filter"]}
{"id": "C16", "title": "Codec encodings are matched by name", "statement": "A codecs encoding triggers a requirement iff its lower-cased text is one of the listed encoding names.", "quantifier": "all encoding strings", "why_tests_cant": "infinite set of strings", "anchors": ["vermin/rules.py: CODECS_ENCODINGS", "vermin/source_visitor.py: minimum_versions"]}
{"id": "C17", "title": "The overall minimum is the combination of the files' minimums", "statement": "Processing files whose individual results are mutually compatible (or with incompatibilities ignored) yields the combination of all files' minimum versions: an interpreter satisfies the reported minimum iff it satisfies every file's; the result is the same for every order of the files.", "quantifier": "all lists of per-file results", "why_tests_cant": "unbounded number of files and orders", "anchors": ["vermin/processor.py: Processor.process"]}
{"id": "C18", "title": "Parallel processing gives the sequential result", "statement": "For every number of processes and every order in which workers finish, Processor.process and detect_paths see the per-item results in submission order, hence return and print the same as a sequential run.", "quantifier": "all numbers of items and all completion schedules", "why_tests_cant": "the schedules cannot be enumerated or forced by a test", "anchors": ["vermin/processor.py: Processor.process", "vermin/detection.py: detect_paths"]}
{"id": "C19", "title": "The incompatible flag and the reported minimum agree with the files", "statement": "Processor.process reports incompatible iff some file was internally incompatible or conflicted with the minimum accumulated so far; the accumulated minimum is never changed by a conflicting or non-python file.", "quantifier": "all lists of per-file results", "why_tests_cant": "histories of arbitrary length", "anchors": ["vermin/processor.py: Processor.process"]}
{"id": "C20", "title": "A clean exit means that every analysed file meets the targets", "statement": "If the program exits 0 with a target for a major version, every analysed file's own minimum for that major is not above the target.", "quantifier": "all collections of files and targets", "why_tests_cant": "unbounded collections", "anchors": ["vermin/main.py: main", "vermin/processor.py: process"]}
{"id": "C21", "title": "The version range lists each required version once, in order", "statement": "unique_versions is strictly ascending, contains exactly the versions above 0.0 that occur in some compatible-by-itself file's minimum, and is order independent.", "quantifier": "all lists of per-file results", "why_tests_cant": "unbounded histories", "anchors": ["vermin/processor.py: Processor.process"]}
{"id": "C22", "title": "novm comments map to the right lines", "statement": "Parser.comments marks line n iff some comment token has a '#'-separated segment starting with novm or novermin and that comment is trailing on line n, or stands alone on line n-1, or trails a triple-quoted string that began on line n.", "quantifier": "all token streams", "why_tests_cant": "token streams are unbounded", "anchors": ["vermin/parser.py: Parser.comments"]}
{"id": "C23", "title": "Syntax errors never invent requirements", "statement": "When source cannot be parsed, detect returns [2.0, !3] for print statements, [!2, 3.12] for type aliases, and otherwise nothing known ([~2, ~3]) or, in pessimistic mode, exactly the running major version marked incompatible.", "quantifier": "all error messages, texts and modes", "why_tests_cant": "ranges over every parser diagnostic", "anchors": ["vermin/parser.py: Parser.detect", "vermin/detection.py: visit, detect"]}
{"id": "C24", "title": "A novm comment removes the marked statement from the analysis", "statement": "If a statement's line is marked novm, analysing the program gives the same visitor state as analysing the program without that statement.", "quantifier": "all programs and sets of marked lines", "why_tests_cant": "all ASTs", "anchors": ["vermin/source_visitor.py: __is_no_line and every visit_* that consults it, visit_ClassDef, generic_visit"]}
{"id": "C25", "title": "Scopes are balanced", "statement": "Visiting any node leaves the nesting bookkeeping (depth, loop counters, try/finally context) as it found it, and names introduced by functions' bodies, lambdas, comprehensions, except handlers, with and for statements are forgotten afterwards.", "quantifier": "all ASTs and all visitor states", "why_tests_cant": "unbounded nesting", "anchors": ["vermin/source_visitor.py: generic_visit, __handle_FunctionDef, visit_Lambda, __handle_comprehensions, __handle_with, __handle_for, __handle_Try, visit_While"]}
{"id": "C26", "title": "Findings only accumulate during the traversal", "statement": "Visiting a node never unsets a detected feature and never removes a module, member, keyword argument, directive or codec found earlier.", "quantifier": "all ASTs and all visitor states", "why_tests_cant": "unbounded programs", "anchors": ["vermin/source_visitor.py: all visit_* methods"]}
{"id": "C27", "title": "Module-level user definitions are never reported as library symbols", "statement": "After analysing any program, no reported module or member has the name of a symbol that the program defines at module level, wherever in the file the definition stands.", "quantifier": "all programs", "why_tests_cant": "order of use and definition is arbitrary", "anchors": ["vermin/source_visitor.py: tour, __after_visit_all, __add_module, __add_member"]}
{"id": "C28", "title": "Excluded names are never reported", "statement": "A name given to --exclude is never reported as a module, member, user function decorator, kwarg 'f(k)', codecs error handler 'ceh=' or encoding 'ce=', and an excluded long is not a py2 requirement.", "quantifier": "all programs and exclusion sets", "why_tests_cant": "all ASTs", "anchors": ["vermin/source_visitor.py: __add_module, __add_member, __add_kwargs, __add_user_func_deco, __add_codecs_error_handler, __add_codecs_encoding, visit_Name", "vermin/config.py: is_excluded*"]}
{"id": "C29", "title": "No language feature is reported without its construct", "statement": "If the analysis reports a language feature (f-strings, walrus, async, pattern matching, set literals, ...), the program contains a syntactic construct of that feature.", "quantifier": "all programs and configurations", "why_tests_cant": "all ASTs", "anchors": ["vermin/source_visitor.py: all visit_* methods"]}
{"id": "C30", "title": "Every reachable construct is reported", "statement": "If the program contains a construct of a language feature at a position that is not under a novm line, an unevaluated annotation or an annotated assignment, the feature is reported; values of keyword arguments count unless the program defines the function that is called.", "quantifier": "all programs", "why_tests_cant": "all ASTs of any depth", "anchors": ["vermin/source_visitor.py: generic_visit and all visit_* methods"]}
{"id": "C31", "title": "Each reported feature enforces its documented version", "statement": "If a language feature is detected and minimum_versions returns, then the returned minimum is at least the version in which Python introduced the feature (py2 marked incompatible where applicable).", "quantifier": "all visitor states and features", "why_tests_cant": "combination with arbitrary other findings", "anchors": ["vermin/source_visitor.py: minimum_versions"]}
{"id": "C32", "title": "Minimum versions are exactly the combination of the findings", "statement": "minimum_versions returns the combination of the requirements of all detected features, directives, typecodes, codecs, modules, members, kwargs and decorators that have a rule, and nothing else.", "quantifier": "all visitor states and rule tables", "why_tests_cant": "unbounded findings", "anchors": ["vermin/source_visitor.py: minimum_versions"]}
{"id": "C33", "title": "Display options never change the verdict", "statement": "Verbosity, quiet, violations mode, targets, tips, AST dumping and output format (for equal ignore_incomp) do not influence the minimum versions detected for a source, only what is printed.", "quantifier": "all programs and all pairs of configurations", "why_tests_cant": "relates two runs over all inputs", "anchors": ["vermin/source_visitor.py: __verbose_print, __add_versions_entity, __violates_target_versions"]}
{"id": "C34", "title": "Unevaluated annotations have no influence", "statement": "Without --eval-annotations the contents of return, parameter and variable annotations do not influence the minimum versions.", "quantifier": "all programs and all annotation expressions", "why_tests_cant": "relates all pairs of programs differing in annotations", "anchors": ["vermin/source_visitor.py: visit_AnnAssign, __handle_FunctionDef, visit_arguments"]}
{"id": "C35", "title": "The value of an annotated assignment is analysed like that of a plain one", "statement": "Features used in v in 'x: T = v' are reported just like in 'x = v'.", "quantifier": "all value expressions", "why_tests_cant": "all ASTs", "anchors": ["vermin/source_visitor.py: visit_AnnAssign, visit_Assign"]}
{"id": "C36", "title": "Analysis never crashes on syntactically valid source", "statement": "detect on parsable source returns minimum versions or raises InvalidVersionException, never another exception.", "quantifier": "all ASTs", "why_tests_cant": "all programs", "anchors": ["vermin/source_visitor.py: visit_Call, __get_attribute_name, minimum_versions"]}
{"id": "C37", "title": "Keyword arguments are attributed to the function being called", "statement": "A kwarg rule (f, k) is triggered by a call of f with keyword k, and only by such a call.", "quantifier": "all nestings of calls", "why_tests_cant": "unbounded nesting of calls in arguments", "anchors": ["vermin/source_visitor.py: visit_Call, visit_keyword, __push_function_name, __pop_function_name"]}
{"id": "C38", "title": "Results can be queried repeatedly", "statement": "Calling minimum_versions any number of times returns the same minimum; output_text afterwards contains the same lines as after one call (when not dumping visits), each at most once.", "quantifier": "all visitor states and all numbers of calls", "why_tests_cant": "unbounded repetition", "anchors": ["vermin/source_visitor.py: minimum_versions, output_text"]}
{"id": "C39", "title": "Output lines come out in a reproducible order", "statement": "output_text is the same for every iteration order of Python's (randomised) string sets.", "quantifier": "all sets of lines and all enumeration orders", "why_tests_cant": "hash seeds and orders cannot be enumerated", "anchors": ["vermin/source_visitor.py: output_text", "vermin/utility.py: sort_line_column, sort_line_column_parsable, bounded_str_hash", "vermin/formats/default_format.py: sort_output_lines", "vermin/formats/parsable_format.py: sort_output_lines"]}
{"id": "C40", "title": "Output lines are sorted by line and column", "statement": "For texts 'LX CY: ..' and 'path:X:Y:..' the sort key orders by line first, then column, then text hash.", "quantifier": "all line and column numbers", "why_tests_cant": "unbounded numbers", "anchors": ["vermin/utility.py: sort_line_column, sort_line_column_parsable"]}
{"id": "C41", "title": "Violations mode shows exactly the violating rules", "statement": "With --violations and targets for distinct majors, a rule line is shown iff its requirement is above, or incompatible with, a target's major; without violations mode every rule line is shown.", "quantifier": "all requirements and target selections", "why_tests_cant": "unbounded versions", "anchors": ["vermin/source_visitor.py: __violates_target_versions, __verbose_print"]}
{"id": "C42", "title": "continue-in-finally is detected relative to the innermost loop", "statement": "A continue statement is reported as 'continue in finally' iff it is inside a finally block with no loop between it and that block.", "quantifier": "all nestings of loops, try statements and other statements", "why_tests_cant": "unbounded nesting", "anchors": ["vermin/source_visitor.py: visit_Continue, __handle_Try, __handle_for, visit_While"]}
{"id": "C43", "title": "Parsable lines can be parsed", "statement": "For a path without ':' and newline, splitting a parsable output line at its first five colons yields back path, line, column, py2, py3 and the feature text (newlines escaped), and the line contains no newline.", "quantifier": "all paths, positions, versions and messages", "why_tests_cant": "infinite set of strings", "anchors": ["vermin/formats/parsable_format.py: format_output_line"]}
{"id": "C44", "title": "Path detection finds exactly the specified files", "statement": "detect_paths accepts a file iff it is reachable from an argument through non-excluded, non-hidden (unless requested) folders, not through symlinked folders below the top (unless requested), is itself not excluded or hidden, and was named directly or looks like python.", "quantifier": "all file system trees and argument lists", "why_tests_cant": "trees of any shape and depth", "anchors": ["vermin/detection.py: detect_paths, detect_paths_incremental, stat_path"]}
{"id": "C45", "title": "Relative paths are scanned like absolute ones", "statement": "Scanning '.' or './x' with --no-make-paths-absolute finds the same (non-hidden) files as scanning the absolute path.", "quantifier": "all file system trees", "why_tests_cant": "trees of any shape", "anchors": ["vermin/detection.py: detect_paths_incremental"]}
{"id": "C46", "title": "Python-file heuristics", "statement": "probably_python_file is True for every path whose extension (case-insensitively) is py, py3, pyw, pyj or pyi, False for each listed non-python extension, and otherwise True iff one of the first ten lines of the readable text is a '#!' line mentioning python; '.'-less names are decided by contents.", "quantifier": "all paths and file contents", "why_tests_cant": "infinite set of paths and contents", "anchors": ["vermin/detection.py: probably_python_file, NOT_PY_CODE_EXTS"]}
{"id": "C47", "title": "Config file search stops at the project boundary", "statement": "detect_config_file returns the first candidate, by folder (nearest first) and then by name order, that has a [vermin] section, never looks above a folder containing a project boundary, and terminates at the root.", "quantifier": "all folder hierarchies", "why_tests_cant": "hierarchies of any depth", "anchors": ["vermin/config.py: detect_config_file"]}
{"id": "C48", "title": "Overriding a config copies every setting", "statement": "After c.override_from(d), every observable setting of c equals that of d (for the parsable format: with its forced verbosity, ignore_incomp and tips).", "quantifier": "all pairs of configurations", "why_tests_cant": "all combinations of settings", "anchors": ["vermin/config.py: override_from, set_format", "vermin/formats/parsable_format.py: set_config"]}
{"id": "C49", "title": "Config files: absent options keep defaults, bad values are rejected", "statement": "parse_fp yields a Config in which each option present in the [vermin] section has the given value and every other has its default, and yields None for unknown backports, features, formats, invalid targets, negative or non-numeric numbers; it never yields a partially applied config.", "quantifier": "all parsed INI sections", "why_tests_cant": "all option combinations and value strings", "anchors": ["vermin/config.py: parse_fp, parse_data, parse_file"]}
{"id": "C50", "title": "Command line: arguments after the options are the paths", "statement": "For a command line of well-formed options followed by paths, exactly those paths are analysed.", "quantifier": "all option sequences and path lists", "why_tests_cant": "unbounded command lines", "anchors": ["vermin/arguments.py: Arguments.parse"]}
{"id": "C51", "title": "Command line: the last of contradicting switches wins", "statement": "For each on/off switch the resulting setting is determined by its last occurrence, independent of other options, and otherwise by the config file or default.", "quantifier": "all argument lists", "why_tests_cant": "unbounded command lines", "anchors": ["vermin/arguments.py: Arguments.parse"]}
{"id": "C52", "title": "Violations mode requires a target and at least verbosity 2; quiet and verbose exclude each other", "statement": "Arguments.parse returning code 0 implies: in violations mode there is a target and the verbosity is at least 2; not quiet with verbosity above 0 outside violations mode; between zero and two targets.", "quantifier": "all argument lists and config files", "why_tests_cant": "unbounded command lines", "anchors": ["vermin/arguments.py: Arguments.parse"]}
{"id": "C53", "title": "Parsable format implies its documented settings", "statement": "Whenever the parsable format is in effect after argument parsing, verbosity is at least 3, incompatible versions are ignored and tips are off.", "quantifier": "all argument lists and config files", "why_tests_cant": "unbounded command lines", "anchors": ["vermin/arguments.py: Arguments.parse", "vermin/formats/parsable_format.py: set_config", "vermin/config.py: set_format, override_from"]}
{"id": "C54", "title": "Exclusions behave as a set", "statement": "After any sequence of add/clear calls, is_excluded(x) holds iff x was added since the last clear; exclusions() is sorted without duplicates.", "quantifier": "all histories of calls", "why_tests_cant": "unbounded histories", "anchors": ["vermin/config.py: add_exclusion, clear_exclusions, exclusions, is_excluded"]}
{"id": "C55", "title": "dotted_name joins the components", "statement": "dotted_name of a list of strings, ints, None and lists is the '.'-join of the flattened non-None components; splitting the result of dot-free non-empty components gives them back.", "quantifier": "all component lists", "why_tests_cant": "unbounded lists", "anchors": ["vermin/utility.py: dotted_name"]}
{"id": "C56", "title": "Attribute chains resolve to their dotted name", "statement": "For a chain a.b.c of attribute accesses on a name the analysis considers exactly the member 'a.b.c' (with import aliases resolved at the head).", "quantifier": "chains of any length", "why_tests_cant": "unbounded depth", "anchors": ["vermin/source_visitor.py: __get_attribute_name, visit_Attribute"]}
{"id": "C57", "title": "The note of insufficient evidence names the right major versions", "statement": "The majors listed in 'Not enough evidence to conclude it won't work with Python ...' are exactly those whose part of the minimum is unknown (0, 0).", "quantifier": "all runs of the program (on Python 3) that analyse files, with all command lines, file systems and files", "why_tests_cant": "infinitely many runs; the function that makes the note labels the majors by position, so an excluded py2 with unknown py3 would be labelled wrongly, and that no run comes to it is a property of all rules and combinations", "anchors": ["vermin/main.py: main", "vermin/utility.py: version_strings"]}
{"id": "C58", "title": "Values of command-line options are checked and take effect", "statement": "A command line is accepted only if every number of processes is a positive integer, every target is a version, every option with a value has one, and formats, backports, features and exclusion patterns are valid; a config file that is to be used but cannot be read is an error. Backports, features and patterns end up as exactly those added after the last word clearing them (plus earlier ones if there is none), and the last -p decides the number of processes.", "quantifier": "all command lines, config files and start configs", "why_tests_cant": "unboundedly many command lines mixing additions, clearings and repeated options in any order", "anchors": ["vermin/arguments.py: Arguments.parse", "vermin/config.py: add_backport, enable_feature, add_exclusion_regex, set_processes"]}
{"id": "C59", "title": "Imports are reported", "statement": "Wherever it is in the program, `import x` makes x one of the modules found, and `from m import x` makes m and m.x found (m.x also as a member), unless they are excluded, the statement is marked, or the program defines something by that name.", "quantifier": "all programs, positions and configurations", "why_tests_cant": "imports at any depth of any program, in combination with any other definitions", "anchors": ["vermin/source_visitor.py: visit_Import, visit_ImportFrom, __add_module, __add_member, tour"]}
{"id": "C60", "title": "Members are reported under the names they stand for", "statement": "A call of f, an expression a.b.c, y.b.c after `import m as y`, x.b.c after `from m import x`, v.b.c after an assignment to v of a value named y (also where y is itself imported from m, or where y = a.d for a variable a that stands for z), an import, and names in `raise` and `except` make f, a.b.c, m.b.c, m.x.b.c, y.b.c (m.y.b.c, z.d.b.c), the imported names and those names members found, if there is a rule for them (and a.b.c a module after `import a`).", "quantifier": "all programs, chains of any length, positions and configurations", "why_tests_cant": "resolution depends on all statements before, of unboundedly many programs", "anchors": ["vermin/source_visitor.py: visit_Call, visit_Attribute, __get_attribute_name, __resolve_module_name, __add_name_res"]}
{"id": "C61", "title": "Nothing about the files is lost when their results are combined", "statement": "Marks count as used iff some file that was analysed has one, annotations might need evaluation iff those of some analysed file might, and the possible backports are those of all analysed files. What is printed about the files is, in order: nothing for input that is not Python; the line naming the file for a file that is incompatible by itself; otherwise its result (in violations mode only if it has findings) followed by the line naming it if it conflicts with the combined minimum of the files before.", "quantifier": "all lists of file results and configurations", "why_tests_cant": "any number of files in any order with any results", "anchors": ["vermin/processor.py: Processor.process", "vermin/formats/default_format.py: output_result"]}
{"id": "C62", "title": "The report says what was found and nothing else", "statement": "Apart from empty lines, the report consists of exactly: the note about incompatible files, the tips that apply (with exactly the possible backports that are not enabled, in order), the minimum of the combined result, the note naming the majors without evidence, the excluded majors, the range of versions, and the targets that are not met, each iff its condition holds.", "quantifier": "all combined results and configurations", "why_tests_cant": "any combination of results, options, backports and targets", "anchors": ["vermin/main.py: main (95-end)", "vermin/utility.py: version_strings"]}
{"id": "C63", "title": "The result of a file", "statement": "For a file that parses, an interpreter satisfies the reported minimum iff it satisfies every finding of the visit; it is incompatible iff some finding needs Python 2, another Python 3, and incompatibilities are not ignored; its possible backports are exactly the known backports among the modules found, its marks those in its comments if comments are parsed. Input with null bytes is left out, other failures count as no requirement, and `detect` returns the minimum the analysis of the file yields.", "quantifier": "all programs, token lists and configurations", "why_tests_cant": "all programs", "anchors": ["vermin/processor.py: process_individual", "vermin/detection.py: detect, visit", "vermin/source_state.py: SourceState.__init__"]}
{"id": "C64", "title": "The output of a whole run", "statement": "What main prints for at least one file is what the processing of the files prints followed by exactly the lines of the report for the combined result, and the exit code is 0 or 1. With quiet and the default format nothing is printed; with quiet in violations mode exactly the findings are printed; the option quiet never changes the exit code. On a Python 3 interpreter every result of a file has parts for their own majors, knows a version of Python 3 if it excludes Python 2, and names only known backports.", "quantifier": "all lists of file results, configurations and programs", "why_tests_cant": "any number of files with any results under any options", "anchors": ["vermin/main.py: main", "vermin/printing.py: nprint", "vermin/processor.py: process_individual"]}
{"id": "C65", "title": "The program does not crash", "statement": "If every analysed file can be analysed (its tree is one Python's parser yields and contains none of the constructs known to crash the analysis, C36), a run of the program on any command line, configuration file and file system never ends with an exception, except IndexError for an empty path argument while hidden files are not scanned and paths are not made absolute.", "quantifier": "all command lines, config files, file systems and files", "why_tests_cant": "all runs", "anchors": ["vermin/main.py: main", "vermin/arguments.py: parse", "vermin/detection.py: detect_paths", "vermin/processor.py: process, process_individual"]}
{"id": "C66", "title": "The report and the exit code are about all requirements of all files", "statement": "For a run whose files do not conflict (or with incompatibilities ignored): the reported minimum is the combination of exactly the requirements found in exactly the files reached from the path arguments (each part excluded iff one requirement excludes it, otherwise the largest version). The exit code is 0 iff at least one file was analysed and each target (one per major) satisfies every requirement of every file, some requirement tells a version of its major and, for exact targets, some requirement needs just that version; or, in violations mode, nothing is required at all. Otherwise it is 1. In particular exit code 0 certifies that every target satisfies every requirement of every analysed file.", "quantifier": "all command lines, config files, file systems and files", "why_tests_cant": "all runs", "anchors": ["vermin/main.py: main", "vermin/detection.py: detect_paths", "vermin/processor.py: process, process_individual", "vermin/utility.py: combine_versions, compare_requirements"]}
{"id": "C67", "title": "The lines about a file are exactly its findings", "statement": "The lines of the text about a file are those of its findings: every line with versions states the requirement of a feature, of which the program contains a construct, or of a module, member, keyword argument, decorator, directive, typecode, error handler or encoding recorded in the visit, under its name; conversely every finding whose level of verbosity is reached is listed, with --violations exactly those that some target violates. With verbosity 3 and without --violations the lines explain the result completely: a version satisfies the minimum iff it satisfies each listed requirement (unless `long` was found, whose line states no version).", "quantifier": "all programs, tables and configurations", "why_tests_cant": "all combinations of constructs and options", "anchors": ["vermin/source_visitor.py: __vvprint, __vvvprint, minimum_versions, output_text", "vermin/utility.py: sort_line_column"]}
{"id": "C68", "title": "Texts of the lines", "statement": "In the default format a line with versions is its position ('L12 C3: ', from verbosity 3 on, as far as known), the message, 'require' if the message is plural (as given, or because it ends in 's') and otherwise 'requires', and the two version texts; a line without versions is its position and the message. The text about a file is its lines, each followed by a line break. In the parsable format the output about a file is its lines followed by one line of the path, no position, the minimum versions and no message, whatever the verbosity.", "quantifier": "all messages, positions, requirements and verbosities", "why_tests_cant": "any text", "anchors": ["vermin/formats/default_format.py: format_output_line", "vermin/formats/parsable_format.py: output_result", "vermin/source_visitor.py: output_text"]}
{"id": "C69", "title": "Lines shown with findings are those of their constructs", "statement": "From verbosity 3 on, the line number shown with a finding is that of the construct that gives rise to it, of one of its decorators, or of a node in it.", "quantifier": "all programs", "why_tests_cant": "positions depend on where the construct is in the whole program", "anchors": ["vermin/source_visitor.py: generic_visit, __vvprint, __add_line_col, minimum_versions"]}
{"id": "C70", "title": "Constructs that depend on names or context are reported", "statement": "A construct whose meaning depends on names or on what is around it is reported when the program settles the matter: `long` that is not defined; `pow` with a negative exponent and a modulus and `super()` under their own names; `Literal` annotations; subscripts of generic built-in types and of those imported by name in an earlier statement; `|` and `|=` of dictionaries (displays, calls of `dict`, variables that are only ever given dictionaries, calls of imported dictionary classes); unions of types; asynchronous generators; `await` in clauses of comprehensions; `...` outside of slices; self-documenting f-strings; parenthesised context managers; `__dir__` and `__getattr__` at the level of a package.", "quantifier": "all programs, tables and configurations", "why_tests_cant": "all statements before and around the construct", "anchors": ["vermin/source_visitor.py: visit_BinOp, visit_AugAssign, visit_Subscript, visit_AnnAssign, visit_Name, visit_Call, visit_AsyncFunctionDef, visit_comprehension, visit_JoinedStr, visit_With, __handle_FunctionDef"]}
{"id": "C71", "title": "Directives, typecodes, encodings, error handlers and decorators are recorded", "statement": "Directives in strings given to `strftime` or `strptime` and in bytes, typecodes given to `array` or `array.array`, error handlers and encodings given by position or keyword to functions that the rules know, and decorators of functions are recorded, however the function or decorator is named by earlier imports; and their requirement is one of those the minimum versions are combined from. Directives recorded are the matches of the pattern in the texts of the program.", "quantifier": "all programs, tables and configurations", "why_tests_cant": "all texts with directives, all statements before, all positions of the construct", "anchors": ["vermin/source_visitor.py: visit_Call, __add_strftime_directive, __add_bytes_directive, __add_array_typecode, __add_codecs_error_handler, __add_codecs_encoding, __handle_FunctionDef, visit_Bytes, STRFTIME_DIRECTIVE_REGEX, BYTES_DIRECTIVE_REGEX"]}
{"id": "C72", "title": "Names defined by the program are not reported where they are defined", "statement": "Whatever is reported (features, modules, members, keyword arguments, decorators) is due to a part of the program, not on a marked line, at a place the visitor gets to, given what is certain there: the names that definitions around and before the place have introduced, the ellipses that are in slices around it, and its nesting. A module, member, keyword argument or decorator is not reported at a place where its name is defined; `long` and generic types are not reported where they are defined, e.g. after a statement that defines them and within functions with such a parameter; `...` is not reported within slices; `__dir__` and `__getattr__` are reported only for functions of the module itself.", "quantifier": "all programs, tables and configurations", "why_tests_cant": "all places of all programs, with all definitions before and around them", "anchors": ["vermin/source_visitor.py: __add_user_def, __add_module, __add_member, __add_kwargs, __add_user_func_deco, visit_Name, visit_Subscript, visit_Ellipsis, __handle_FunctionDef, visit_arguments, __handle_comprehensions, __handle_with, __handle_for, visit_ExceptHandler, visit_ClassDef"]}
{"id": "C73", "title": "Attributes of calls and literals are attributes of what is called and of the type", "statement": "The dotted name that is considered for an attribute consists of names of parts of its expression and ends with its own; for an attribute of a call it is that of the attribute of what is called, for an attribute of a literal it is that of the attribute of its type, whatever the arguments and elements are; and such members are found.", "quantifier": "all attribute expressions, programs, tables and configurations", "why_tests_cant": "expressions nest arbitrarily: the name is computed by a breadth-first walk through all parts of the expression", "anchors": ["vermin/source_visitor.py: __get_attribute_name, visit_Attribute, visit_Call, visit_keyword"]}
{"id": "C74", "title": "The message about a conflict is right", "statement": "If the findings of a file cannot be combined, the message is about two requirements that do conflict: the requirement of a finding, and one of which each part is due to findings before. Whatever the message mentions as requiring one of them is a finding with exactly this requirement, under the name it is reported with; if several have the requirement they are shown as a list of literals; if nothing is known of one of the two, the message has the requirements only.", "quantifier": "all programs, states of the visitor, tables and configurations", "why_tests_cant": "all combinations of findings, in all orders, with all names", "anchors": ["vermin/utility.py: combine_versions, __handle_incomp_versions", "vermin/source_visitor.py: __add_versions_entity, minimum_versions"]}
{"id": "C75", "title": "Whatever a parsable run prints can be parsed", "statement": "With the parsable format, standard output consists of lines that split at their first five colons into path, line, column, the requirements of both major versions and a description: lines about analysed files, among them one summary for each file with what the file requires, and a last line without a path with what all files require. Syntax errors are reported in the same form, with the versions that are taken from them. Progress is printed only by verbose runs with the default format.", "quantifier": "all command lines, file systems, files and programs", "why_tests_cant": "all paths, messages, verbosity settings and combinations of files", "anchors": ["vermin/main.py: main", "vermin/formats/parsable_format.py", "vermin/processor.py: process, process_individual", "vermin/parser.py: detect", "vermin/source_visitor.py: output_text"]}
{"id": "C76", "title": "Texts are recognised as the regular expressions say", "statement": "For all texts, what is taken from lines of output, versioned backports, format directives, replacement fields without number, `with` statements with parentheses, type alias statements, targets and f-strings is what the regular expressions of the source match, with their groups and preferences: the engine finds a match if and only if there is one.", "quantifier": "all texts", "why_tests_cant": "texts are unbounded; greedy and lazy repetition with backtracking depends on all characters", "anchors": ["vermin/utility.py: LINE_COL_REGEX, LINE_COL_PARSABLE_REGEX, TARGETS_SPLIT, remove_whitespace", "vermin/backports.py: VERSIONED_BACKPORT_REGEX", "vermin/parser.py: TYPE_ALIAS_STMT", "vermin/source_visitor.py: STRFTIME_DIRECTIVE_REGEX, STR_27_FORMAT_REGEX, WITH_PAREN_REGEX"]}
{"id": "C77", "title": "Whatever is refused is explained", "statement": "A command line or config file is refused if and only if it has one of the mistakes that are listed: options without their values, unknown names, versions or formats, numbers that are too small, too many targets, settings that contradict each other, config files that cannot be used. What is printed then are the messages for the first mistake, with what is suggested in its place. Nothing is refused silently. The first word asking for help or the version decides, whatever else there is. What is accepted prints nothing but exclusion files that cannot be read and the config file that was found.", "quantifier": "all command lines, config files and environments", "why_tests_cant": "the order and combination of options and the contents of config files are unbounded", "anchors": ["vermin/arguments.py: Arguments.parse", "vermin/config.py: Config.parse_file, parse_data, add_backport, add_target", "vermin/utility.py: format_title_descs", "vermin/backports.py: Backports.str"]}
{"id": "C78", "title": "The help documents exactly what is accepted", "statement": "Read as text, the full help documents an option if and only if the word means something to the program; it shows a value with an option exactly if the option needs one, marks as defaults exactly the options that change nothing when given first, lists with backports, features and formats exactly the values that are accepted, and names the config files, project boundaries and extensions that are in effect.", "quantifier": "all words, values, environments and machines", "why_tests_cant": "that an arbitrary word is ignored, or an arbitrary value refused, is a statement about all texts", "anchors": ["vermin/arguments.py: print_usage, parse", "vermin/formats/__init__.py", "vermin/features.py", "vermin/backports.py", "vermin/detection.py: probably_python_file", "vermin/constants.py"]}
{"id": "C79", "title": "Numbers stand for versions", "statement": "Versions may be given to combine_versions as ints and floats: an int n stands for (n, 0), a float X.Y stands for (X, Y); negative floats and lists of another length than two are refused.", "quantifier": "all numbers, lists and settings, with the rounding of floats", "why_tests_cant": "the tests have the floats 2.0, 2.1, 3.0 and 3.1 only; rounding makes 3.4 stand for (3, 3)", "anchors": ["vermin/utility.py: float_version, combine_versions (fixup)"]}
{"id": "C80", "title": "Every run ends with an exit code that its output explains", "statement": "A run ends in one of these ways: short help (nothing asked for, exit code 1), full help or version (0), a refused command line with its message (1), an exception (1), no files with a message (1), a target not met with a message (1), or a report (0). It never fails without saying anything unless it is quiet. The exit code is 0 exactly if there are files and they meet the targets.", "quantifier": "all command lines, config files, file systems and programs", "why_tests_cant": "runs are unbounded combinations of options, config files, and files", "anchors": ["vermin/main.py: main", "vermin/arguments.py: Arguments.parse, print_usage", "vermin/config.py: parse_file"]}
{"id": "C81", "title": "Whatever is named on the command line is analysed, or it is said why not", "statement": "Each path named on the command line is a file that is analysed, or a folder whose visible entries are looked at; anything else is mentioned, unless quiet mode is on. What is mentioned while files are looked for is exactly the folders that cannot be listed.", "quantifier": "all file systems, settings and named paths", "why_tests_cant": "file systems and lists of paths are unbounded", "anchors": ["vermin/detection.py: detect_paths, detect_paths_incremental, stat_path", "vermin/main.py: main"]}
{"id": "C82", "title": "An interrupted run is not taken for a finished one", "statement": "If the user interrupts the analysis (KeyboardInterrupt), the program says that it is aborting, claims nothing about minimum versions or about the files that were not finished, and its exit code is not 0.", "quantifier": "all collections of files and moments of the interrupt", "why_tests_cant": "the moment of an interrupt is arbitrary; the handlers are excluded from coverage", "anchors": ["vermin/processor.py: process_individual", "vermin/processor.py: process", "vermin/main.py: main"]}
{"id": "C83", "title": "The exit code and the report answer for the sources", "statement": "If a run ends with exit code 0, every target version satisfies what Python's documentation (for language features) and the rules (for modules, members, keyword arguments, directives, typecodes, error handlers, encodings and decorators) say about every construct that is evidently in a source of an analysed file; the reported minimum versions do so, too. Conversely, every version that is reported and every target that is not satisfied is due to a part of a source, or to an error of syntax.", "quantifier": "all command lines, file systems, sources and configurations (orderly runs; or, if not quiet, files that are not named as incompatible)", "why_tests_cant": "it composes the command line, the detection of paths, the visitor, the rules, the combination of results and the exit code; tests check single sources", "anchors": ["vermin/main.py: main", "vermin/processor.py: process", "vermin/source_visitor.py: SourceVisitor", "vermin/rules.py", "vermin/utility.py: compare_requirements"]}
{"id": "C84", "title": "What the command line says last about verbosity, format, targets, exclusions and versions counts", "statement": "After parsing a command line, the verbosity is the number of v's of the last -v.. word, otherwise the config file's (raised to 2 with --violations and to 3 with --format parsable); the format is the last one asked for, otherwise the config file's; the targets are those named after the last --no-target, together with the config file's if there is no such word; the exclusions are those named, or listed in readable files named, after the last --no-exclude, together with the config file's if there is no such word; versions are printed if --versions is given and the format is not parsable.", "quantifier": "all command lines that are accepted, config files and environments", "why_tests_cant": "the order and number of the words is unbounded; tests check single options", "anchors": ["vermin/arguments.py: Arguments.parse", "vermin/config.py: Config.add_target, add_exclusion, add_exclusion_file, set_verbose, set_format"]}
{"id": "C85", "title": "Excluding more and enabling more backports never raises the requirement", "statement": "If a configuration differs from another only in that it excludes further names and enables further backports (and in what does not matter, such as verbosity), then a source for which minimum versions are detected still has minimum versions, no new conflict or crash appears, and every interpreter version that satisfied the former satisfies the latter. The visit finds nothing that was not found before. Excepted are exclusions of keyword arguments f(k) (their values are not visited either, so definitions in them are lost) and backports of typing_extensions.", "quantifier": "all sources (trees and tokens), all pairs of such configurations, all interpreter versions", "why_tests_cant": "exclusions and backports act at every place where a module, member, keyword or decorator is looked up; tests try single names", "anchors": ["vermin/source_visitor.py: __add_module, __add_member, __add_kwargs, __add_user_func_deco, visit_keyword, minimum_versions", "vermin/config.py: is_excluded, is_excluded_kwarg", "vermin/rules.py: bpv", "vermin/detection.py: detect"]}
{"id": "C86", "title": "The order and repetition of path arguments do not matter", "statement": "For a command line of options followed by paths, the whole run (output, messages, exit code, exception) depends only on which paths are named, neither on their order nor on how often each is named.", "quantifier": "all command lines of options followed by words without a leading dash, all lists of paths with the same members, all file systems, sources, environments", "why_tests_cant": "paths are expanded level by level into sets, sorted and combined; tests name one or two paths in one order", "anchors": ["vermin/detection.py: detect_paths, detect_paths_incremental", "vermin/main.py: main", "vermin/arguments.py: parse"]}
{"id": "C87", "title": "Appending statements never lowers the requirement", "statement": "If minimum versions are detected for a program, they are also detected for its first statements alone, and every interpreter version that satisfies the former satisfies the latter; unless the program as a whole defines (at module level) a name that the first statements require as a module or member.", "quantifier": "all programs, all ways to split their statements in two, all configurations, all interpreter versions", "why_tests_cant": "findings are accumulated in a large mutable state and partly removed again at the end; that nothing else gets lost cannot be seen from examples", "anchors": ["vermin/source_visitor.py: tour, generic_visit, __after_visit_all, minimum_versions"]}
{"id": "C88", "title": "The layout of a program does not matter", "statement": "If the nodes of a program move to other lines and columns, and its text changes, such that the same nodes are on lines excluded by comments and the source says the same about `except*` and about a parenthesis after `with`, then the same minimum versions are detected (or the same error is raised). In particular comments and empty lines can be inserted at the top of a file without effect, if no mark is among them, the file does not begin with an indented comment, and no `with` statement of several items is followed by nothing but white space and backslashes.", "quantifier": "all programs, all layouts, all configurations, all source texts and tokens, any number of inserted lines", "why_tests_cant": "positions are used in many places of the visitor (output, exclusion, identity of nodes, lookups in the source text); tests use one layout for each construct", "anchors": ["vermin/source_visitor.py:879-1010 (__is_no_line, generic_visit)", "vermin/source_visitor.py:1873-1896 (visit_ExceptHandler)", "vermin/source_visitor.py:1977-2003 (with statements)", "vermin/parser.py:26-69 (comments)"]}
{"id": "C89", "title": "Enabling more features never lowers what a source requires", "statement": "If minimum versions are detected for a source with some features enabled (--feature fstring-self-doc, --feature union-types), they are also detected with any part of them enabled, and every interpreter that satisfies the former satisfies the latter. The same if moreover more names are excluded and more backports are enabled (see C85).", "quantifier": "all programs, all pairs of configurations that differ in this way and in display options, all source texts and tokens", "why_tests_cant": "whether a feature only adds findings depends on every visitor method and on all programs; tests look at single constructs with the feature on", "anchors": ["vermin/source_visitor.py: visit_BinOp, visit_AugAssign, visit_JoinedStr, minimum_versions", "vermin/config.py: has_feature", "vermin/features.py"]}
{"id": "C90", "title": "The rules agree with each other: nothing is available before what it is part of", "statement": "Every version that satisfies the rule of a module or member (or keyword argument, or decorator) satisfies the rules of all modules and members that it is in, i.e. whose name followed by a dot begins its name (for keyword arguments also the rule of the function). This holds under every set of backports. The types for which subscription or `|` is said to need 3.9 are there in 3.9. Hence an interpreter that satisfies a detected minimum has all that the findings with a rule are part of.", "quantifier": "all 178 module rules, 2614 member rules, 875 keyword argument rules, decorators and type lists; all sets of backports; all versions; for the last part all states of the visitor", "why_tests_cant": "the rules are data entered by hand from documentation; no test compares entries with each other, and backports change entries independently", "anchors": ["vermin/rules.py: MOD_REQS, MOD_MEM_REQS, KWARGS_REQS, DECORATOR_USER_FUNCTIONS, BUILTIN_GENERIC_ANNOTATION_TYPES, DICT_UNION_SUPPORTED_TYPES, DICT_UNION_MERGE_SUPPORTED_TYPES", "vermin/source_visitor.py: minimum_versions"]}
{"id": "C91", "title": "Loosening the targets never turns a passing run into a failing one", "statement": "Take two command lines whose runs look at the same files for the same things (same paths and options about finding files, same backports, features, exclusions, comments, annotations, incompatibilities, pessimism; parsable format in both or neither). If the first run ends with exit code 0 and the targets of the second are looser (targets dropped, or replaced by a minimum at the same or a later version of the same major), then the second run ends with exit code 0, too. With the same targets and violations mode the exit codes are the same, whatever the verbosity, quietness, tips or number of processes.", "quantifier": "all worlds (files, trees, interpreters 3.x), all pairs of command lines as described", "why_tests_cant": "a relation between two runs, over all sources and command lines; tests fix single runs", "anchors": ["vermin/main.py: main", "vermin/processor.py: process", "vermin/utility.py: compare_requirements", "vermin/config.py: add_target"]}
{"id": "C92", "title": "Trees of Python 3.8 and of later versions are treated alike", "statement": "Up to Python 3.8 `ast` wraps an index in `Index` and several subscripts with a slice in `ExtSlice`; later versions do not. What is required of a program is the same whether vermin runs on 3.8 or later, i.e. for a tree and the one with these wrappers replaced.", "quantifier": "all syntax trees of Python 3.8", "why_tests_cant": "the test suite of one run uses one interpreter; the claim relates trees of two, for all programs", "anchors": ["vermin/source_visitor.py: visit_Subscript", "vermin/source_visitor.py: __is_dict", "vermin/source_visitor.py: __get_attribute_name"]}
{"id": "C93", "title": "The representation of a configuration tells all its settings", "statement": "repr(config) of two configurations is the same only if all settings are the same (exclusions, backports and features as sets), whatever strings the exclusions contain, and conversely. Each switch, the verbosity, the number of processes and the format stand on a line of their own with their name.", "quantifier": "all configurations, all strings in them, all orders of enumerating sets, any notion of printable characters", "why_tests_cant": "injectivity is about all pairs of configurations; the test compares the text for one", "anchors": ["vermin/config.py: Config.__repr__"]}
{"id": "C94", "title": "Conditional code counts like unconditional code", "statement": "The analysis does not follow the flow of control. Replacing `if e: A else: B` anywhere by e, A and B one after another, `return e` or `assert e` by e, or leaving out pass and break, leaves everything found and printed as it was. This holds at any depth in functions, loops, with, try, handlers, cases, conditions and methods. It is not claimed for statements directly in the body of a class, for conditions on lines excluded by a comment, and for conditional definitions of __dir__ or __getattr__ in __init__.py.", "quantifier": "all programs, all places in them, all settings other than printing the visited nodes", "why_tests_cant": "the equality is between two analyses of arbitrary programs, with arbitrary statements nested in the branches and arbitrary states before them", "anchors": ["vermin/source_visitor.py: visit_If", "vermin/source_visitor.py: generic_visit", "vermin/source_visitor.py: visit_Pass", "vermin/source_visitor.py: visit_Break", "vermin/source_visitor.py: visit_ClassDef", "vermin/source_visitor.py: __handle_Try"]}
{"id": "C95", "title": "Texts are taken apart, put together and ordered as Python's methods do", "statement": "The string, list and dictionary methods the code relies on are modelled as documented. strip leaves out exactly the white space at both ends; split gives the pieces between separators, empty ones included; join puts the separator between; lower changes the 26 letters of ASCII only; startswith, endswith and `in` mean that the rest exists; replace changes every occurrence; splitlines gives the lines; int accepts a sign, white space around and single underscores between digits; str writes decimal without zeros in front; comparison is by code points, a beginning comes first; sort is the stable permutation in order; dictionaries have the value assigned last.", "quantifier": "all texts, lists and dictionaries", "why_tests_cant": "the methods are functions of arbitrarily long texts; each equivalence determines their value for all of them", "anchors": ["vermin/utility.py: parse_target", "vermin/utility.py: version_strings", "vermin/parser.py: comments", "vermin/config.py: parse_data", "vermin/processor.py: process_individual", "vermin/arguments.py: parse"]}
{"id": "C96", "title": "Settings that are not about the contents of files do not change what is found in them", "statement": "The result of a file, with all that is printed about it, does not depend on the number of processes, on tips and on the settings about which files are looked at; which files are looked at does not depend on any other setting. In code without novm/novermin comments, --no-parse-comments changes nothing (it is documented as a speedup): the run ends alike, with the same exit code, and with the same tips, if any, the whole output is the same. Exclusions, exclusion patterns, backports and features count as sets: neither their order nor their multiplicity has an influence.", "quantifier": "all files, configurations, file systems and command lines", "why_tests_cant": "the equality is between runs with arbitrary settings over arbitrary files; each setting is stored in an object that all of the analysis can read", "anchors": ["vermin/source_visitor.py: SourceVisitor", "vermin/processor.py: process_individual", "vermin/detection.py: detect_paths", "vermin/main.py: main", "vermin/parser.py: parse"]}
{"id": "C97", "title": "The stated numbers of rules are right", "statement": "Whatever backports are chosen, the tables have exactly the numbers of different rules that the README states and count.py prints: 178 modules, 2614 members, 875 keyword arguments, 4 strftime directives, 3 bytes directives, 2 array type codes, 3 codecs error handlers, 20 codecs encodings, 78 builtin generic annotation types, 9 and 8 types of dictionary unions, 2 user function decorators, 3796 in all; the versions they cover are exactly 2.0-2.7 and 3.0-3.12.", "quantifier": "all configurations (selections of backports)", "why_tests_cant": "count.py counts under the default configuration only; that no selection of backports changes a count needs all of them", "anchors": ["README.rst: Usage, rule counts", "count.py", "vermin/rules.py: MOD_REQS", "vermin/rules.py: MOD_MEM_REQS", "vermin/rules.py: KWARGS_REQS"]}
{"id": "C98", "title": "Paths are joined, made absolute and taken apart as os.path documents", "statement": "abspath gives the one plain text (no empty part, '.', '..' or slash at the end) of the place the path leads to from the working directory, going through its parts from the root on; a joined path leads where its first part and then its second lead, and is absolute if the second is; the base name follows the last slash; the extension follows the last dot of the base name unless only dots precede it; the code of a package is the file with base name __init__.py.", "quantifier": "all texts of paths and working directories", "why_tests_cant": "paths are arbitrary texts; the characterisations determine the functions for all of them, also for repeated slashes, dots and paths above the root", "anchors": ["vermin/detection.py: detect_paths_incremental", "vermin/detection.py: probably_python_file", "vermin/main.py: main", "vermin/config.py: detect_config_file", "vermin/source_state.py: SourceState.__init__"]}
{"id": "C99", "title": "No run depends on the order in which Python enumerates sets", "statement": "If the sets of the visitor are enumerated in other orders (as with another hash seed), a file gets the same minimum versions, backports, novermin lines and annotation note, or the same error; its text has the same lines. detect() gives the same result. The whole program ends the same way with the same exit code and prints the same texts, except for the order of lines within the text of a file; if lines are sorted as texts (default format below verbosity 3, or printed visits) the runs are equal.", "quantifier": "all programs, configurations, command lines, file systems and orders of sets", "why_tests_cant": "an order is chosen anew by every interpreter start; no test enumerates the orders of all sets at once", "anchors": ["vermin/source_visitor.py: SourceVisitor.__after_visit_all", "vermin/source_visitor.py: SourceVisitor.visit_Subscript", "vermin/source_visitor.py: SourceVisitor.output_text", "vermin/processor.py: Processor.process", "vermin/main.py: main"]}
{"id": "C100", "title": "Harmless statements change nothing", "statement": "Statements made only of pass, break, global, return, del, assert, if, while, conditional expressions, and/or/not, comparisons, lists, tuples, names (other than long, True, False), numbers, text and None can be inserted or removed anywhere among the statements of a program, also as new else branches or finally blocks, without a change of the minimum versions or error that is detected. If other statements move thereby, the same lines must be excluded by comments and the source must say the same about except* and parentheses after with. A program of such statements only requires nothing.", "quantifier": "all programs, harmless statements, places to insert them, layouts and configurations without dumping of nodes", "why_tests_cant": "tests compare a few programs, not all pairs of programs with and without such statements; statements are visited again in class bodies and finally blocks", "anchors": ["vermin/source_visitor.py: SourceVisitor.generic_visit", "vermin/source_visitor.py: SourceVisitor.visit_ClassDef", "vermin/source_visitor.py: SourceVisitor.visit_Try", "vermin/source_visitor.py: SourceVisitor.visit_Constant", "vermin/source_visitor.py: SourceVisitor.visit_Name", "vermin/source_visitor.py: SourceVisitor.visit_While"]}
{"id": "C101", "title": "Names that mean nothing to Vermin do not matter", "statement": "If all identifiers of a program (functions, classes, arguments, keywords, attributes, variables, imported modules and members, aliases) are renamed consistently — different names stay different, dotted names are renamed word by word, names in the rules, the few words the visitor compares with and excluded names stay — then the same minimum versions, or the same error, are detected. In particular two words that are no part of a known name can be exchanged, for instance any two words with letters outside ASCII. The source text and comments may change with the names as far as C88 allows.", "quantifier": "all programs, renamings, configurations without the feature fstring-self-doc, hosts", "why_tests_cant": "tests use fixed names; that no other name, nor a prefix or the length of a name, has an influence needs all programs and all renamings", "anchors": ["vermin/source_visitor.py: SourceVisitor.__add_module", "vermin/source_visitor.py: SourceVisitor.__add_member", "vermin/source_visitor.py: SourceVisitor.__add_kwargs", "vermin/source_visitor.py: SourceVisitor.__resolve_full_name", "vermin/source_visitor.py: SourceVisitor.__get_attribute_name", "vermin/source_visitor.py: SourceVisitor.__add_user_def", "vermin/source_visitor.py: SourceVisitor.minimum_versions", "vermin/detection.py: detect"]}
{"id": "C102", "title": "Runs over files that say the same are the same", "statement": "Two runs with the same arguments over the same paths, whose files differ only by changes that are harmless one by one (other layout and comments as in C88, more harmless statements as in C100, other names as in C101, another order of sets as in C99, marked statements left out as in C24, annotations that are not evaluated as in C34, another flow of control as in C94, trees of Python 3.8 or 3.9 as in C92), in any number and order and in both directions, end the same way with the same exit code. At verbosity 0 and 1, if the same files use comments that exclude lines, they also print exactly the same; nothing about the contents of a file is shown then, except for a file that is incompatible by itself.", "quantifier": "all worlds (file systems, files, programs, hosts), all command lines without --dump, all chains of changes", "why_tests_cant": "an equivalence over all programs and all sequences of rewritings, for whole runs over any number of files", "anchors": ["vermin/main.py: main", "vermin/processor.py: Processor.process", "vermin/processor.py: process_individual", "vermin/source_visitor.py: SourceVisitor.tour", "vermin/source_visitor.py: SourceVisitor.minimum_versions", "vermin/source_visitor.py: SourceVisitor.output_text", "vermin/source_visitor.py: SourceVisitor.__verbose_print"]}
{"id": "C103", "title": "A config file has the effect of the same options on the command line", "statement": "Settings written in the [vermin] section of a detected config file have the effect of the same settings given first on the command line: parsing the arguments ends with the same error, or with the same paths and the same configuration up to the order of exclusions, and the run is the same: same output, same exit code. The rest of the command line is arbitrary (without options about config files); if the settings ask for the parsable format, it must not undo what that implies (C53).", "quantifier": "all lists of settings, all config files that write them, all spellings on the command line, all further arguments, all worlds", "why_tests_cant": "every setting can be combined with every other one, in any order and number, and with any further arguments; the two sources go through different code", "anchors": ["vermin/config.py: Config.parse_fp", "vermin/config.py: Config.override_from", "vermin/arguments.py: Arguments.parse", "vermin/main.py: main"]}
{"id": "C104", "title": "Where files lie and how often they occur does not matter, and fewer files never need more", "statement": "Two runs with the same aims over copies of the same files - at any paths, in any number of copies, in any order - combine the same minimum versions, and with the same targets end with the same exit code. A run over copies of some of the files of another has minimum versions at most those of the other; if the other ends with exit code 0, so does it, provided there are files left and some of them still need a version of each target's major. A file that a target does not satisfy makes every run fail that analyses a copy of it.", "quantifier": "all pairs of worlds (file systems, contents), all pairs of command lines with the same aims", "why_tests_cant": "any files can be moved, copied and left out; the path of a file decides what is printed and which features are looked for (__init__.py)", "anchors": ["vermin/processor.py: Processor.process", "vermin/processor.py: Processor.process_individual", "vermin/detection.py: detect_paths", "vermin/source_visitor.py: SourceVisitor.__is_init_file, visit_FunctionDef", "vermin/main.py: main"]}
{"id": "C105", "title": "Statements put before others never lower what is required, unless they concern the names of those", "statement": "If minimum versions are detected for a program of two parts, they are detected for the second part alone, and every interpreter that satisfies the former satisfies the latter, provided that the second part uses no name that the first defines, assigns to, loops over or imports under a name, none of these is a name that Vermin gives to values (dict, list, ...), and literals `...` are different nodes. In particular if the parts have no identifiers in common.", "quantifier": "all configurations, all programs of two parts of any size", "why_tests_cant": "what is known from any statement can change how any later one is looked at", "anchors": ["vermin/source_visitor.py: SourceVisitor.__add_user_def, __add_name_res, __add_module, __add_member, visit_Attribute, visit_keyword, after_visit_all"]}
{"id": "C106", "title": "A program of unrelated parts requires exactly what its parts require", "statement": "If a program has two parts, neither uses a name that the other defines, assigns to, loops over or imports under a name, the second uses no part of the name of a module that the first imports, and nothing is excluded, then: if minimum versions are detected for the program, they are detected for both parts, and an interpreter satisfies the former iff it satisfies both of the latter; and if they are detected for both parts and some interpreter satisfies both, they are detected for the program.", "quantifier": "all configurations without exclusions, all programs of two parts of any size", "why_tests_cant": "what is known from any statement can change how any later one is looked at, so all pairs of programs matter", "anchors": ["vermin/source_visitor.py: SourceVisitor.__add_user_def, __add_name_res, __add_module, __add_member, visit_Attribute, visit_ImportFrom, visit_keyword, after_visit_all"]}
{"id": "C107", "title": "A program of many unrelated parts requires exactly what they require, in any order", "statement": "If a program has any number of parts, none uses a name that another gives a meaning to or part of the name of a module that an earlier one imports, and nothing is excluded, then an interpreter satisfies the minimum versions of the program iff it satisfies those of all parts, and they are detected if they are for all parts and some interpreter satisfies all. If no part uses names that another gives a meaning to or imports, then the parts in any other order require the same.", "quantifier": "all configurations without exclusions, all programs of any number of parts, all orders", "why_tests_cant": "the number of orders and of programs is unbounded, and anything known from one statement can change how another is looked at", "anchors": ["vermin/source_visitor.py: SourceVisitor", "vermin/detection.py: detect"]}
{"id": "C108", "title": "Programs are not said to run where the modules and functions they use do not exist", "statement": "Every interpreter that satisfies the minimum versions detected for a program satisfies the rules of all modules, members and keyword arguments that it uses. In particular, a program that uses a module, a function or a keyword argument that came with Python 3.n needs Python 3.n or later; one that uses a module or function that Python 3 dropped needs Python 2; one that uses such a module by its new name needs Python 3; and one that uses what came with Python 2.m and is in Python 3 since 3.n needs one of these (without backports, and unless the name is excluded, marked, or defined by the program). The dates are those of the PEPs and the documentation.", "quantifier": "all programs, all configurations, all uses in places that are looked at; 24 modules, 53 members and 39 keyword arguments that were added, 25 modules and 16 members that were dropped, 19 modules that were renamed, 37 modules and 38 members of both", "why_tests_cant": "the number of programs and of ways to use a module is unbounded; tests of single rules repeat the table they test", "anchors": ["vermin/rules.py: MOD_REQS, MOD_MEM_REQS", "vermin/source_visitor.py: SourceVisitor", "vermin/detection.py: detect"]}
{"id": "C109", "title": "Encodings and error handlers given to functions of codecs are noticed", "statement": "For every function and class of the module codecs, the encoding and the error handler are looked for where the parameters for them are, by position and by keyword, and for nothing else; so a program that gives one that came with Python 3.n needs Python 3.n or later.", "quantifier": "all programs, all configurations, all 19 functions and classes of codecs that are given encodings or error handlers, all ways to call them", "why_tests_cant": "the ways to call a function (positions, keywords, imported names) and the programs around the calls are unbounded", "anchors": ["vermin/rules.py: CODECS_ERRORS_INDICES, CODECS_ENCODINGS_INDICES, CODECS_ERROR_HANDLERS, CODECS_ENCODINGS", "vermin/source_visitor.py: __add_codecs_error_handler, __add_codecs_encoding"]}
{"id": "C110", "title": "Moving statements into a function never lowers what is required", "statement": "If minimum versions are detected for a program whose last statement is a function without parameters that is not used, they are also detected for the program with the body of the function in its place, and every interpreter that satisfies the former satisfies the latter. If no name that the statements define is that of a module or member with a rule (and nothing is excluded), the same is detected for both. In a file __init__.py, functions __dir__ and __getattr__ are excepted.", "quantifier": "all programs, all configurations, all names of the function that are not used in the program", "why_tests_cant": "the statements before and in the function are unbounded", "anchors": ["vermin/source_visitor.py: __handle_FunctionDef, visit_FunctionDef, __after_visit_all", "vermin/source_visitor.py: user_defs"]}
{"id": "C111", "title": "A module or function is taken as the program's own exactly if a definition of its name outlasts its scope", "statement": "A module that is imported outside of functions and other scopes is found exactly if no definition of its name outlasts the part of the program that makes it; the same holds for a function that is called. Definitions in functions, lambdas, comprehensions, loops, with statements and handlers do not outlast them and hide nothing outside. (Definitions in methods do: the statements of a class are looked at once more without their scope.)", "quantifier": "all programs, all configurations, all names", "why_tests_cant": "the nesting of scopes and the definitions in them are unbounded", "anchors": ["vermin/source_visitor.py: __add_user_def, __add_module, __add_member, __after_visit_all", "vermin/source_visitor.py: __handle_FunctionDef, visit_ClassDef, visit_Lambda, __handle_for, __handle_with, visit_ExceptHandler, __handle_comprehensions"]}
{"id": "C112", "title": "Marking further statements never raises what a source requires", "statement": "If minimum versions are detected for a source, then also if further statements of it are marked with novm or novermin comments, and every interpreter that satisfies the former versions satisfies the latter. The marked statements must not matter elsewhere (they assign no variables and import no names under other names, and what they define does not outlast them), and no decorators are marked in addition. The comments may be on the lines of the statements or on lines of their own, by which the others move.", "quantifier": "all programs, all configurations, all choices of further marks, all positions", "why_tests_cant": "the statements that may be marked, what they contain and what follows them are unbounded", "anchors": ["vermin/source_visitor.py: __is_no_line and its uses in the visit_ methods", "vermin/parser.py: comments", "vermin/source_visitor.py: minimum_versions"]}
