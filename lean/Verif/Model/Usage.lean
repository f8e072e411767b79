import Verif.Model.Messages
/-
Models `Arguments.print_usage` (arguments.py:15-192).  Texts are copied from the source;
what is printed at once is given as the list of its lines, which are printed with line ends between them.
-/
namespace Vermin
open Py

/-- Lines given as texts. -/
def texts (l : List String) : List (List Char) := l.map String.toList

/-- The first lines (arguments.py:17-19). -/
def usageTitle (argv0 : String) : List (List (List Char)) := [
  ["Vermin ".toList ++ versionText.toList],
  ["Usage: ".toList ++ argv0.toList ++ " [options] <python source files and folders..>".toList],
  texts ["",
    "Concurrently detect the minimum Python versions needed to run code."]]

/-- Without `full` (arguments.py:21-22). -/
def usageHint : List (List (List Char)) := [
  texts ["",
    "For full help and options, use `-h` or `--help`."]]

/-- How files are chosen, results are read, and config files are found (arguments.py:24-42). -/
def usageNotes : List (List (List Char)) := [
  texts ["",
    "Heuristics are employed to determine which files to analyze:",
    "  - 'py', 'py3', 'pyw', 'pyj', 'pyi' are always scanned (unless otherwise excluded)",
    "  - 'pyc', 'pyd', 'pxd', 'pyx', 'pyo' are ignored (including various other files)",
    "  - Magic lines with 'python' are accepted, like: #!/usr/bin/env python",
    "  - Files that cannot be opened for reading as text devices are ignored"],
  texts ["",
    "However, Vermin will always attempt to parse any file paths directly specified on",
    "the command line, even without accepted extensions or heuristics, unless otherwise",
    "excluded."],
  texts ["",
    "Results interpretation:"],
  texts ["  ~2       No known reason it won't work with py2."],
  texts ["  !2       It is known that it won't work with py2."],
  texts ["  2.5, !3  Works with 2.5+ but it is known it won't work with py3."],
  texts ["  ~2, 3.4  No known reason it won't work with py2, works with 3.4+"],
  texts ["",
    "Incompatible versions notices mean that several files were detected incompatible",
    "with py2 and py3 simultaneously. In such cases the results might be inconclusive."],
  texts ["",
    "A config file is automatically tried detected from the current working directory",
    "where Vermin is run, following parent folders until either the root or project",
    "boundary files/folders are reached. However, if --config-file is specified, no config",
    "is auto-detected and loaded."]]

/-- Names of config files and the first options, with `full` (arguments.py:44-72). -/
def usageFirst : List (List (List Char)) := [
  texts [""] ++ ["Config file names being looked for: ".toList ++ quotedNames configFileNames] ++ ["Project boundary files/folders: ".toList ++ quotedNames projectBoundaries],
  texts ["",
    "Options:"],
  texts ["  --quiet | -q",
    "        Quiet mode. If used together with --violations, quiet mode is preserved",
    "        while showing only violations: no descriptive text, tips, or verdicts.",
    ""],
  texts ["  --no-quiet (default)",
    "        Disable quiet mode.",
    ""],
  texts ["  -v..  Verbosity level 1 to 4. -v, -vv, -vvv, and -vvvv shows increasingly more",
    "        information.",
    "        -v     will show the individual versions required per file.",
    "        -vv    will also show which modules, functions etc. that constitutes",
    "               the requirements.",
    "        -vvv   will also show line/col numbers.",
    "        -vvvv  will also show user-defined symbols being ignored.",
    ""],
  texts ["  --target=V | -t=V",
    "        Target version that files must abide by. Can be specified once or twice.",
    "        A '-' can be appended to match target version or smaller, like '-t=3.5-'.",
    "        If not met Vermin will exit with code 1. Vermin will only compare target",
    "        versions with the same major version, so if you do not care about Python",
    "        2, you can just specify one target for Python 3. However, if used in",
    "        conjunction with --violations, and no rules are triggered, it will exit",
    "        with code 0.",
    ""],
  texts ["  --no-target (default)",
    "        Don't expect certain target version(s).",
    ""]]

/-- The option with a default that depends on the machine (arguments.py:73-75). -/
def usageProcesses (cpus : Nat) : List (List Char) :=
  texts ["  --processes=N | -p=N",
    "        Use N concurrent processes to detect and analyze files. Defaults to all"] ++ ["        cores (".toList ++ strNat cpus ++ ").".toList] ++ texts [""]

/-- The other options (arguments.py:76-192). -/
def usageOptions : List (List (List Char)) := [
  texts ["  --ignore | -i",
    "        Ignore incompatible versions and warnings. However, if no compatible",
    "        versions are found then incompatible versions will be shown in the end to",
    "        not have an absence of results.",
    ""],
  texts ["  --no-ignore (default)",
    "        Don't ignore incompatible versions and warnings.",
    ""],
  texts ["  --dump | -d",
    "        Dump AST node visits.",
    ""],
  texts ["  --no-dump (default)",
    "        Don't dump AST node visits."],
  texts ["",
    "  --help | -h",
    "        Shows this information and exits."],
  texts ["",
    "  --version | -V",
    "        Shows version number and exits."],
  texts ["",
    "  --config-file <path> | -c <path>",
    "        Loads config file unless --no-config-file is specified. Any additional",
    "        arguments supplied are applied on top of that config. See configuration",
    "        section above for more information."],
  texts ["",
    "  --no-config-file",
    "        No automatic config file detection and --config-file argument is disallowed."],
  texts ["",
    "  --hidden",
    "        Analyze 'hidden' files and folders starting with '.'."],
  texts ["",
    "  --no-hidden (default)",
    "        Don't analyze hidden files and folders unless specified directly."],
  texts ["",
    "  --versions",
    "        In the end, print all unique versions required by the analysed code."],
  texts ["",
    "  --show-tips (default)",
    "        Show helpful tips at the end, like those relating to backports or usage of",
    "        unevaluated generic/literal annotations."],
  texts ["",
    "  --no-tips",
    "        Don't show tips."],
  texts ["",
    "  --violations | --lint",
    "        Show only results that violate versions described by --target arguments,",
    "        which are required to be specified. Verbosity mode is automatically set to",
    "        at least 2 in order to show violations in output text, but can be increased",
    "        if necessary.",
    "",
    "        If no rules are triggered while used in conjunction with --target, an exit",
    "        code 0 will still be yielded due to inconclusivity.",
    "",
    "        Can be used together with --quiet such that only the violations are shown:",
    "        no descriptive text, tips, or verdicts."],
  texts ["",
    "  --no-violations | --no-lint (default)",
    "        Show regular results."],
  texts ["",
    "  --pessimistic",
    "        Pessimistic mode: syntax errors are interpreted as the major Python version",
    "        in use being incompatible."],
  texts ["",
    "  --no-pessimistic (default)",
    "        Disable pessimistic mode."],
  texts ["",
    "  --eval-annotations",
    "        Instructs parser that annotations will be manually evaluated in code, which",
    "        changes minimum versions in certain cases. Otherwise, function and variable",
    "        annotations are not evaluated at definition time. Apply this argument if",
    "        code uses `typing.get_type_hints` or `eval(obj.__annotations__)` or",
    "        otherwise forces evaluation of annotations."],
  texts ["",
    "  --no-eval-annotations (default)",
    "        Disable annotations evaluation."],
  texts ["",
    "  --parse-comments (default)",
    "        Parse for comments to influence exclusion of code for analysis via",
    "        \"# novm\" and \"# novermin\"."],
  texts ["",
    "  --no-parse-comments",
    "        Don't parse for comments. Not parsing comments can sometimes yield a speedup",
    "        of 30-40%+."],
  texts ["",
    "  --scan-symlink-folders",
    "        Scan symlinks to folders to include in analysis."],
  texts ["",
    "  --no-symlink-folders (default)",
    "        Don't scan symlinks to folders to include in analysis. Symlinks",
    "        to non-folders or top-level folders will always be scanned."],
  texts ["",
    "  --format <name> | -f <name>",
    "        Format to show results and output in.",
    "        Supported formats:"] ++ formatsLines 10,
  texts ["",
    "  [--exclude <name>] ...",
    "        Exclude full names, like 'email.parser.FeedParser', from analysis. Useful to",
    "        ignore conditional logic that can trigger incompatible results.",
    "",
    "        Examples:",
    "          Exclude 'foo.bar.baz' module/member: --exclude 'foo.bar.baz'",
    "          Exclude 'foo' kwarg:                 --exclude 'somemodule.func(foo)'",
    "          Exclude 'bar' codecs error handler:  --exclude 'ceh=bar'",
    "          Exclude 'baz' codecs encoding:       --exclude 'ce=baz'"],
  texts ["",
    "  [--exclude-file <file name>] ...",
    "        Exclude full names like --exclude but from a specified file instead. Each",
    "        line constitutes an exclusion with the same format as with --exclude."],
  texts ["",
    "  --no-exclude (default)",
    "        Use no excludes. Clears any excludes specified before this."],
  texts ["",
    "  [--exclude-regex <regex pattern>] ...",
    "        Exclude files from analysis by matching a regex pattern against their",
    "        entire path as expanded from the Vermin command line. Patterns are matched",
    "        using re.search(), so '^' or '$' anchors should be applied as needed.",
    "",
    "        Examples:",
    "          Exclude any '.pyi' file:                --exclude-regex '\\.pyi$'",
    "",
    "          (Note: the below examples require --no-make-paths-absolute, or prefixing",
    "          the patterns with the regex-escaped path to the current directory.)",
    "",
    "          Exclude the directory 'a/b/':           --exclude-regex '^a/b$'",
    "            (This will also exclude any files under 'a/b'.)",
    "",
    "          Exclude '.pyi' files under 'a/b/':      --exclude-regex '^a/b/.+\\.pyi$'",
    "          Exclude '.pyi' files in exactly 'a/b/': --exclude-regex '^a/b/[^/]+\\.pyi$'"],
  texts ["",
    "  --no-exclude-regex (default)",
    "        Use no exclude patterns. Clears any exclude patterns specified before this."],
  texts ["",
    "  --make-paths-absolute (default)",
    "        Convert any relative paths from the command line into absolute paths.",
    "        This affects the path printed to the terminal if a file fails a check,",
    "        and requires --exclude-regex patterns to match absolute paths."],
  texts ["",
    "  --no-make-paths-absolute",
    "        Do not convert relative paths from the command line into absolute paths."],
  texts ["",
    "  [--backport <name>] ...",
    "        Some features are sometimes backported into packages, in repositories such",
    "        as PyPi, that are widely used but aren't in the standard language. If such a",
    "        backport is specified as being used, the results will reflect that instead.",
    "        Versioned backports are only used when minimum versions change. Unversioned",
    "        backports must be the newest among versioned and unversioned.",
    "",
    "        Supported backports:"] ++ backportsLines 10 backportInfos,
  texts ["",
    "  --no-backport (default)",
    "        Use no backports. Clears any backports specified before this."],
  texts ["",
    "  [--feature <name>] ...",
    "        Some features are disabled by default due to being unstable:"] ++ featuresLines 10,
  texts ["",
    "  --no-feature (default)",
    "        Use no features. Clears any features specified before this."]]

/-- `Arguments.print_usage` (arguments.py:15-192): the lines of what each call of `print` prints.  `argv0` is `sys.argv[0]`. -/
def usage (argv0 : String) (cpus : Nat) (full : Bool) : List (List (List Char)) :=
  usageTitle argv0 ++ (if full then [] else usageHint) ++ usageNotes ++ (if full then usageFirst ++ usageProcesses cpus :: usageOptions else [])

end Vermin
