# Formal model of netromdk/vermin (1.6.0) in Lean 4

## Layout

* `lean/Verif/Model/*.lean` – the model. Every definition cites file and lines of `/repo`.
* `lean/Verif/Spec/*.lean` – small specifications used in theorem statements, independent of the visitor.
* `lean/Verif/Lemmas/*.lean` – helper lemmas.
* `lean/Verif/Props/*.lean` – the property theorems `Cnn_*`. Beside them are
  * `Cnn_witness*`: concrete, non-trivial cases that meet the hypotheses;
  * `Cnn_false*`: machine-checked counterexamples where the claim is false of the code.
* `MANIFEST.json` lists, for each property of `properties.jsonl`, the theorems and what is missing.
* `seeded/LOG.jsonl` logs the seeded faults: the model was edited like a realistic bug in a scratch copy, and the theorems rebuilt. With `build_stopped_early` (323 entries, of the later batches) the build was stopped 20 s after the first failure, so `theorems_failed` names the first proofs that broke, often lemmas about the traversal, and the theorem of the claim itself was often not reached. A proof that breaks does not show that its statement has become false, so such an entry is weaker evidence than one whose property theorem or example failed. For twelve entries, marked by their note, the statement itself was shown to be false, by evaluating the edited model on a program given in the note. For the others `claim_broken` was judged by reading. Randomly generated edits that did not typecheck as a model, or left the program the same, are not logged.
* `tools/` holds the generators of the rule tables (they parse the text of `rules.py` with `ast`; nothing of the project is executed).

## Trusted base

* Lean's kernel (4.33.0). No own axioms, no `sorry`, no `native_decide`, no `bv_decide`. `decide +kernel` is evaluation by the kernel.
* Axioms used by the theorems: at most `propext`, `Classical.choice`, `Quot.sound`. No Mathlib module is imported.
* The reading of the code: that the definitions in `Model/` say what the cited lines say. Nothing of vermin was executed.
* The generated tables (`RulesMod`, `RulesMem`, `RulesKw`, `RulesSmall`, `Exts`): that the generators transcribe the literals of the source. They
  are plain data, one entry per line in the order of the source, so they can be compared by eye.

## What is modelled, file by file

| source | model | notes |
|---|---|---|
| `utility.py` | `Version`, `Utility`, `Floats`, `Numbers` | combination, version strings, target parsing and comparison, sort keys (exact numbers; `Floats` has the keys rounded as IEEE 754 does, and `Props/Floats` proves the same order for lines below 2^20 and columns below 1000), versions given as ints and floats (`Numbers`) |
| `rules.py` | `Rules`, `RulesMod`, `RulesMem`, `RulesKw`, `RulesSmall` | all tables, as data with the conditions on backports |
| `backports.py`, `features.py`, `constants.py` | `Rules`, `Config` | |
| `config.py` | `Config`, `ConfigFile`, `Repr` | settings; `repr`; reading of values; search for config files. The INI syntax (`configparser`) is an input |
| `formats/`, `printing.py` | `Formats` | output lines, sorting, the parsable format; colours are not modelled |
| `arguments.py` | `Arguments`, `Messages`, `Usage` | outcome of the whole argument loop; what it prints; the help |
| `detection.py` | `Detection`, `Skips`, `Exts`, `File` | path detection on POSIX paths with a file system as input, and what it prints; the heuristics for Python files; `visit`, `detect` |
| `parser.py` | `Parser` | `ast.parse` and `tokenize` are inputs; `novm` comments and messages of syntax errors are modelled |
| `source_state.py` | `State` | all fields |
| `source_visitor.py` | `Ast`, `Names`, `State`, `Visitor`, `Minimum` | every `visit_*` method current interpreters can call, all helpers, `minimum_versions`, `output_text`, `tour` |
| `processor.py` | `Processor`, `File` | results of files in order; the reordering of `Pool.imap` as a state machine |
| `main.py` | `Main`, `Program`, `Console`, `Interrupts` | `Main`: from the processed files to report and exit code. `Program`: all of `main`, from the command line and the file system on. `Interrupts`: what `KeyboardInterrupt` leads to while files are analysed (what worker processes do about it is not modelled). `Console`: the same with help, messages about arguments and config files, and exit codes of all endings |

### The interpreter

`Model/Ast.lean` describes the trees of CPython 3.8–3.13 (up to 3.8 with `ast.Index` and `ast.ExtSlice` in subscripts). Trees are rose trees: a class with attributes, a position, the field the node is in, and
the children in the order of `_fields`. Theorems quantify over *all* such trees, also those no parser yields, unless they assume `Parsed`
(`Spec/Parsed.lean`).

A visitor method is a function `S → Except Err S` (`V`): it changes the state or raises. Output lines are part of the state. The recursion of
`NodeVisitor` is structural: a method gets the results of visiting its children.

### Simplifications

* `int()` accepts ASCII digits only; `lower`/`upper` map ASCII letters only.
* Python's sets are lists without duplicates. Where the order of a set influences output, the environment has an arbitrary function `order`
  (theorems say when they need that it is a permutation).
* Regular expressions used by the code are replaced by hand-written matchers over lists of characters (`Model/Names.lean`, `Model/Parser.lean`,
  `Model/Utility.lean`, `Model/Rules.lean`). `Model/Regex.lean` has the syntax of patterns and matching with backtracking, as far as these patterns need it,
  and `Props/Regex.lean` (C76) proves for each pattern, as it is written in the source, that the matcher does the same. `\d` and `\w` are ASCII only.
  Exclusion patterns given by users are an arbitrary predicate.
* `ast.dump` for `--dump` is an arbitrary function.
* Recursion limits, memory, encodings of files, and failures of the operating system other than unreadable files are not modelled; a
  `RecursionError` is a possible outcome of a file (`Model/File.lean`).
* Expression contexts are attributes of names, lists, tuples and starred expressions instead of children.
* Sharing of containers: the model has values only. `Config.override_from` of the code shares the lists of the two configs afterwards. No theorem is about later
  changes of a config whose settings were taken over.

### Not modelled

* `visit_*` methods for classes that current interpreters never create (`Print`, `Repr`, `Bytes`, `Num`, `Str`, `NameConstant`, `TryExcept`, `TryFinally`,
  `Exec`, `Ellipsis`), that is, analysis by Python before 3.8.
* Texts of exceptions (inputs of `Messages`, `Skips`). In which order the output of worker processes and of the main process appears.
* Windows and its paths.
* The console (colours, encodings of output).

## How the proofs about the visitor work

* `Lemmas/Visitor.lean`: the visitor as an algebra (`visitAlg`) over the results for the children.
* `Lemmas/Traversal.lean` and `Closure.lean`: **one** traversal principle. `Closed env d n I Q A` lists what a relation `Q` between two visitor
  actions has to be closed under: recording a finding, learning something about a name, the scopes, the contexts of loops, and so on. For
  each of them it may use evidence `A` that the node gives rise to it (`EmitsIn`, `Spec/Constructs.lean`), and the knowledge `I` about states. From this
  `visit_closed` concludes the relation for whole trees. All invariants of the visitor are instances:
  * growth of the findings and balance of scopes (C25, C26; `Step.lean`),
  * each finding has a cause (C29; `Traced.lean`),
  * no crashes (C36; `Safe.lean`),
  * display options (C33; `Display.lean`),
  * `continue` in `finally` (C42; `Finally.lean`, `Toured.lean` for exactly what is reported),
  * marked statements and unevaluated annotations (C24, C34; `Pruned.lean`, `Annotations.lean`),
  * calls around keyword arguments (C37; `Stack.lean`).
* Completeness (C30, C37, C59, C60, C70, C71) uses `Reach` (`Spec/Reach.lean`): which parts of a program are looked at. `Lemmas/Reach.lean` shows that the visitor does
  visit them, in a state between the first and the last; `Found.lean` adds what is known about names there.
  `Seen` (`Spec/Chains.lean`) adds the values of keyword arguments, which are looked at if the function is none of the program's own (`Lemmas/Seen.lean`); the theorems are about `Seen`.
  `Lemmas/Settled.lean` uses both for the constructs of `Spec/Settled.lean` (C70), which depend on names or on what is around them.
  Self-documenting f-strings are recognised by comparing text: `Spec/Written.lean` says how an expression is written, `Lemmas/Written.lean` that
  the extraction of `visit_JoinedStr` gives this text, `Props/Written.lean` shows expressions it fails for.
  `Lemmas/Members.lean` does it for all that uses modules and members (`Spec/Members.lean`, C59, C60).
  `Lemmas/Records.lean` does the same for directives, typecodes, encodings, error handlers and decorators (`Spec/Records.lean`, C71); directives are
  the matches of the pattern as stated in `Spec/Directives.lean`, independent of the matcher of the model.

* What nodes give rise to (`Spec/Constructs.lean`, `Spec/Learnt.lean`) is stated with relations of the tree only: `Spec/Nodes.lean` (parts, chains, annotations),
  `Reads` and `DotParts` (`Spec/Spelt.lean`: how an attribute may be read, and the parts of a dotted text), `Renders` (`Spec/Written.lean`: the text of a formatted value)
  and `Parsed`, `HasComplex`, `HasDictUnpack` (`Spec/Parsed.lean`: what crashes). `Lemmas/Names.lean`, `Fine.lean` and `Reads.lean` show that
  `__get_attribute_name`, `dotted`, `__extract_fstring_value` and the rest give nothing else. So a mistake in those functions is a mistake with regard to the theorems,
  not a change of what they say.

* Names of attributes (C73): `Spec/Spelt.lean` says how attributes of calls and literals are spelt; `Lemmas/Spelt.lean` shows that the breadth-first walk of
  `__get_attribute_name` gives these names if arguments and elements have nothing that contributes to it. `Spec/Members.lean` uses it for members and keyword arguments.
  The walk itself is stated by a queue (`Spec/Walks.lean`) that `ast.walk` is described with; `Lemmas/Walks.lean` shows that the levels of the model are this order.

* Characters (`Spec/Chars.lean`: white space, digits, word characters, ends of lines; by code points) and literals (`Spec/Literals.lean`: strings and lists of
  strings, read back by a relation) are stated independently of the functions of the model; `Lemmas/Chars.lean` and `Props/Conflicts.lean` relate them.

* Places (C72): `Spec/Places.lean` says what is certain at a place (`Located`): names defined before or around it, ellipses in slices around it, the
  nesting. `Lemmas/Places.lean` follows the visitor through all parts in order; most methods are instances of the algebra (`Acting`, all of `Closed` but the generic
  visit), those that define names are done by hand, as what is certain changes within them.

Whole runs: `Props/File.lean` (C63) relates the result of one file to the findings of the visit, `Report.lean` (C61, C62) says what is gathered from the
results and which lines are printed, `Run.lean` (C64) puts these together for a list of files. `Program.lean` (C65, C66) is about `program`, the model of
`main`: path detection (C44) and argument parsing (C50–C52) in front, the exit code behind. Its statements use `AnalysedPath` (the files reached from
the arguments) and `FileReq` (what a file requires).
`EndToEnd.lean` (C83) composes these with the completeness and the causes of findings: `Demands` says what a source evidently needs, `Reason` why a file
requires something; both are about the tree, not about findings.
`ArgSettings.lean` (C84) does for verbosity, format, targets, exclusions and `--versions` what C51 and C58 do for the other settings: every setting is a function of
the last words about it (`argLoop_gather` is the induction over the words).
`Relaxed.lean` (C85) compares a visit with one with more exclusions and milder rules; `Lemmas/Relax.lean` is the traversal principle for such pairs of runs (same state except
for the findings, of which there are fewer).
`Order.lean` (C86) compares runs whose path arguments are the same up to order and repetition; it also has the exact form of C45.
`Append.lean` (C87) compares a program with its first statements.
`Layout.lean` (C88) compares programs that differ in the positions of their nodes.
`Relaxed.lean` also has C89, about the features that can be enabled.
`RulesParts.lean` (C90) compares the rules with each other; the search for the owners of a key is done by the kernel on a
tree of the numbers that stand for the keys.
`Loosened.lean` (C91) compares the exit codes of two runs over the same files.  `Reproducible.lean` (C39) says exactly when
the output does not depend on the order of sets.
`OldTrees.lean` (C92) compares trees of Python 3.8 with later ones (`Spec/OldTrees.lean`). `Lemmas/Shift.lean` shows that visiting an expression does not depend on the
depth of nesting, so that one more `generic_visit` (for `ast.Index`) changes nothing; `Lemmas/OldTrees.lean` and `OldVisits.lean` compare the visits function by function.
The tuple that takes the place of an `ast.ExtSlice` keeps its position, which is a simplification (an `ExtSlice` has none); `C92_program_partial` is not about them.
`Repr.lean` (C93) is about `repr` of the settings.
`Flow.lean` (C94) is about programs that differ in their flow of control only (`Spec/Flow.lean`); `Lemmas/Flow.lean` shows that they are visited alike, using that visits do not depend on the depth (`Lemmas/Shift.lean`).
`Printed.lean` (C18, C23, C38, C78) is about texts printed in rarer situations: the message of a syntax error, the hint about a `RuntimeError`, the output asked for twice, the lists in the help.
`Keys.lean` (C40) says exactly what output lines are ordered by.
`Crashes.lean` (C36) says which programs crash the analysis (`Spec/Fatal.lean`).
`Chosen.lean` (C17, C20) says which files of a collection with conflicts count (`Spec/Chosen.lean`).
`Strings.lean` (C95) compares the string, list and dictionary methods of `Model/Py.lean` with relations that say what they should give (`Spec/Strings.lean`).
`Unrelated.lean` (C96) is about settings that the analysis of a file does not read; the visits are equal by the induction of `Lemmas/Closure.lean` with equality as the relation.
`Counts.lean` (C97) is about the numbers of rules; the lengths of the tables are evaluated by the kernel, that they are numbers of different keys under all backports follows from C13.
`Notes.lean` (C57) is about the note of insufficient evidence in all runs.
`PathText.lean` (C98) says what the functions on paths in `Model/Detection.lean` mean, with a walk through folders (`Spec/PathText.lean`) as the meaning of a path.
`Shuffled.lean` (C99) compares runs in which sets are enumerated in different orders (`Lemmas/Shuffled.lean`: visits that do the same except for the order of the output; `Spec/Rearranged.lean`: texts with the same lines).
`Harmless.lean` (C100) is about programs with more statements that require nothing (`Spec/Harmless.lean`: `Harmless` and `Padded`; `Lemmas/Harmless.lean` builds on `Lemmas/Layout.lean`).
`Renamed.lean` (C101) is about programs with other names (`Spec/Renamed.lean`: `Renaming`, `knownNames`; `Lemmas/Renamed.lean` and `Lemmas/Tracks.lean` compare the two visits).
`Equivalent.lean` (C102) is about runs over files that say the same (`Spec/Equivalent.lean`: `SaysSame`; `Lemmas/Mute.lean`: nothing is printed at low verbosity).
`Configured.lean` (C103) compares settings in config files with settings on the command line (`Setting`, `OnLine`, `Writes`).
`Contents.lean` (C104) compares runs over copies of files (`Copy`, `Copies`); `Lemmas/Elsewhere.lean` has the visits at two paths.
`Beside.lean` (C105, C106) has the counterpart of C87 for statements put before others; `Spec/Beside.lean` says what parts that have nothing to do with each other are, and `Lemmas/Beside.lean` compares the visits of the same statements from a fresh state and from one with other findings.
C106 in the same file is the exact statement for parts of which neither uses names of the other: the program requires what the two require together.
`Parts.lean` (C107) extends it to any number of parts, and to any order of them.
`History.lean` (C108) compares the rules for modules and members with the history of Python's library (`Spec/History.lean`).
`Codecs.lean` (C109) compares the positions of encodings and error handlers with the parameters of the functions of `codecs` (`Spec/Codecs.lean`).
`Enclosed.lean` (C110) compares the last statements of a program with a function whose body they are (`Spec/Enclosed.lean`); `Lemmas/Enclosed.lean` has the visit of such a function.
`Escapes.lean` (C111) is about the definitions that are left in the end (`Spec/Escapes.lean`); `Lemmas/Escapes.lean` bounds them from above (`visitNode_confines`) and from below (`escapes_runs`).
`Marks.lean` (C112) compares the visits of a program with and without further marks (`Spec/Marks.lean`); `Lemmas/Marks.lean` goes through a visit that leaves the parts out but keeps the line (`mixNode`), which finds less than the first (`Relaxes`) and is the second up to positions (`Follows`). Names defined in the marked parts are allowed if they do not outlast them (`Escapes`, C111): what a visit adds to the definitions comes at their end, and by C111 it is nothing then.
`Floats.lean` (C40) is about the rounding of sort keys, with IEEE 754 (`Model/Floats.lean`); `Regex.lean` (C76) about the regular expressions: the engine
is compared with a relation that says what an expression matches (`Spec/Regex.lean`), and the matchers of the models with the engine.
`Messages.lean` and `FileMessages.lean` (C77) say which command lines and config files are refused and what is printed then; `Spec/Complaints.lean` lists the
mistakes with their messages. `Help.lean` (C78) compares the text of the help, as read by `Spec/Help.lean`, with the parser.
`Interrupts.lean` (C82) is about interrupted runs. `Console.lean` (C80) lists how runs can end, with what is printed and the exit code. `Skips.lean` (C81) is about what path detection says and what becomes of named paths. `Numbers.lean` (C79) is about versions given as numbers.
`Parsable.lean` (C75) is about all that a run with the parsable format prints, and about the progress shown by verbose runs.

The text about a file: `Spec/Entries.lean` describes entries (messages with position and requirement), `Lemmas/Spoken.lean` shows with the traversal
principle (with the printed lines as part of the relation) which entries a visit prints, and `Props/Listing.lean` (C67–C69) relates them to the findings.

Rules: properties of whole tables (C12–C16) are decided by the kernel for the tables as data, and lifted to all selections of backports by theorems
about the evaluation of entries.

## What is false of the code

Found while proving; each has a machine-checked counterexample of the given name in the model (for those without one the reason is in the notes of
`MANIFEST.json` or in the comments of the model).

* Features: `await` in the element of a comprehension is not `await` in a comprehension (`C30_false_await`), an asynchronous generator that awaits only in a
  clause of a comprehension is none (`C30_false_asyncGenerator`), and `Literal` parameters do not count beside an annotated result (`C30_false_literal`).
* Targets: of two targets of the same major version only the last counts (`C09_false`).
* Parsable format: the text about an unreadable file has no line end, so its summary is not a line of its own (`C75_false_failed`); without files and with
  `--dump` there are lines that cannot be parsed (`C75_false_no_files`, `C75_false_visits`).
* Codecs: four keys of the table lack a comma, so substrings of the names match (`C16`).
* Files: a file that conflicts with earlier ones is left out of the minimum and of the exit code (`C20`). With several processes a file that raises
  gives another result than with one (`C18_false_on_errors`). Unreadable files count as files without requirements.
* `novm`: marked statements directly in a class body are analysed nevertheless (`C24_false_class`); `return`, `assert` and others ignore the mark
  (`C24_false_return`).
* Class bodies are visited twice, the second time without regard to `novm`, loops, `try` and unevaluated annotations (`C24_false_class`, `C34_false_class`,
  and a false report of `continue` in `finally`).
* Names: names bound by loops or `with` at module level are forgotten, and relative imports do not count as definitions, so user
  definitions are reported as library members (`C27`).
* `with` parentheses: found by a search for `with(` in the text, which can be part of another name (`C29_false_withParentheses`).
* `"{}".format(..)` requires 3.0 while automatic numbering came with 3.1 (`C31_false_format27`).
* Annotations of parameters are always analysed (`C34_false_parameter`); the value of `x: T = v` is not, unless annotations are evaluated (`C35_false`).
* Crashes: `x.strftime(1)`, `def f(x: 1j)`, `f"{ {**a} }"` with `fstring-self-doc`, `codecs.open(p, "r", None)` (`C36_false_*`); a path with `:` in the
  parsable format.
* Keyword arguments are recorded for all functions around (`f(g(k=1))`), lost after `h()()`, and recorded under the new name of imported functions
  (`C37_false_*`). `visit_Call` pops the stack of functions even if nothing was pushed.
* Excluding a keyword argument can raise the requirement, as definitions in its value are not seen (`C85_false_keywords`).
* `import x as x` hides `x` (`C59_false_alias`).
* Output: keys of lines are hashes that collide for anagrams, so the order of such lines depends on set order (`C39_false_collision`); columns from 1000 on are
  sorted wrongly (`C40_default_false`).
* `except*`, `else` branches of loops: `continue` in `finally` is not reported (`C42`).
* Lines: several features are shown with the line of the statement visited before, for example `nonlocal` (`C69_false`). The line for `long` states no
  version (`C67_false_long`); boolean constants are listed only from verbosity 3 on (`C67_false_constants`).
* Paths: children of `.` are `./a.py` and therefore count as hidden (`C45_false`); an empty path raises.
* Parsable format from a config file: `-v`, `--no-ignore` and `--show-tips` undo its settings (`C53`).
* The encoding given to `codecs.iterencode` and `iterdecode` is looked for one place too late, and the rule for `codecs.StreamRecoder` misspells it (`C109_false_iterencode`, `C109_false_recoder`).
* The rule for `dummy_threading` allows no version of Python 3, although 3.0 to 3.8 have it; `xrange`, `raw_input` and others that Python 3 dropped have no rule (`C108_false_dummy_threading`, `C108_false_forgotten`).
* What a method defines for itself (variables and parameters) hides the modules and functions of the same name in the whole program, because `visit_ClassDef` visits the parts of the statements of a class once more without their scope (`C111_method`).  `import argparse` with `class A:` and a method that sets a local variable `argparse` loses the requirement of the module (`C111_witness`).
* At a call as in `g()()` the function whose arguments it is in is taken off the stack of functions, though nothing was put on it: in `f(g()(), k=y)` the keyword argument is not found.  A novm comment on `g()()` reveals it and raises what is required (`C112_false_unnamed`).
* The note of insufficient evidence would name the wrong major version if py2 were excluded and py3 unknown (`C57_false`); runs on Python 3 never come to that (`C57_program`).
* Python 3.8: the ellipsis of `x[..., 1:2]` counts as one out of slices, other than with later versions (`C92_false`).
* Others: symlink cycles are followed with `--scan-symlink-folders`; targets of the config file and of the command line add up;
  "No known reason found" can never be printed.
