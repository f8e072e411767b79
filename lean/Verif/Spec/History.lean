import Verif.Spec.Version
/-
When modules and functions came to the standard library of Python, or left it.  From the PEPs and the documentation ("New in version"), not from Vermin.
-/
namespace Vermin.Spec

/-- Modules that came with Python 3.n and were not in Python 2 -/
def addedModules : List (String × Nat) := [
  ("concurrent.futures", 2),   -- PEP 3148
  ("faulthandler", 3),
  ("ipaddress", 3),            -- PEP 3144
  ("lzma", 3),
  ("unittest.mock", 3),
  ("venv", 3),                 -- PEP 405
  ("collections.abc", 3),
  ("asyncio", 4),              -- PEP 3156
  ("enum", 4),                 -- PEP 435
  ("pathlib", 4),              -- PEP 428
  ("selectors", 4),
  ("statistics", 4),           -- PEP 450
  ("tracemalloc", 4),          -- PEP 454
  ("typing", 5),               -- PEP 484
  ("zipapp", 5),               -- PEP 441
  ("secrets", 6),              -- PEP 506
  ("contextvars", 7),          -- PEP 567
  ("dataclasses", 7),          -- PEP 557
  ("importlib.resources", 7),
  ("importlib.metadata", 8),
  ("multiprocessing.shared_memory", 8),
  ("graphlib", 9),
  ("zoneinfo", 9),             -- PEP 615
  ("tomllib", 11)]             -- PEP 680

/-- Modules of Python 2 that were removed or renamed in Python 3.0 (PEP 3108), and the one that only helps to get there -/
def droppedModules : List String := [
  "BaseHTTPServer", "ConfigParser", "DocXMLRPCServer", "HTMLParser", "Queue", "SimpleXMLRPCServer", "SocketServer", "Tkinter", "__builtin__", "_winreg",
  "cookielib", "copy_reg", "dummy_thread", "future_builtins", "hotshot", "htmlentitydefs", "markupbase", "md5", "new", "popen2", "repr", "sets", "urllib2",
  "urlparse", "xmlrpclib"]

/-- The names that came in their place -/
def renamedModules : List String := [
  "_dummy_thread", "_markupbase", "_thread", "builtins", "configparser", "copyreg", "html", "http", "http.cookiejar", "http.server", "queue", "reprlib",
  "socketserver", "tkinter", "urllib.parse", "winreg", "xmlrpc", "xmlrpc.client", "xmlrpc.server"]

/-- Members of modules that came with Python 3.n and were not in Python 2 -/
def addedMembers : List (String × String × Nat) := [
  ("asyncio", "TaskGroup", 11), ("asyncio", "run", 7), ("asyncio", "to_thread", 9), ("contextlib", "ExitStack", 3), ("contextlib", "chdir", 11),
  ("contextlib", "nullcontext", 7), ("contextlib", "suppress", 4), ("datetime", "UTC", 11), ("datetime", "timezone", 2), ("enum", "Flag", 6),
  ("enum", "StrEnum", 11), ("functools", "cache", 9), ("functools", "cached_property", 8), ("functools", "lru_cache", 2), ("functools", "singledispatch", 4),
  ("html", "escape", 2), ("html", "unescape", 4), ("inspect", "get_annotations", 10), ("inspect", "signature", 3), ("itertools", "accumulate", 2),
  ("itertools", "batched", 12), ("itertools", "pairwise", 10), ("math", "cbrt", 11), ("math", "dist", 8), ("math", "gcd", 5), ("math", "inf", 5),
  ("math", "isclose", 5), ("math", "lcm", 9), ("math", "prod", 8), ("math", "tau", 6), ("operator", "call", 11), ("os", "PathLike", 6), ("os", "fspath", 6),
  ("os", "replace", 3), ("os", "scandir", 5), ("random", "choices", 6), ("shutil", "which", 3), ("statistics", "fmean", 8), ("subprocess", "run", 5),
  ("textwrap", "indent", 3), ("time", "monotonic", 3), ("time", "perf_counter", 3), ("time", "time_ns", 7), ("types", "MappingProxyType", 3),
  ("types", "SimpleNamespace", 3), ("typing", "Annotated", 9), ("typing", "Final", 8), ("typing", "Literal", 8), ("typing", "ParamSpec", 10),
  ("typing", "Protocol", 8), ("typing", "Self", 11), ("typing", "TypedDict", 8), ("typing", "override", 12)]

/-- Members and builtins that Python 3.0 dropped -/
def droppedMembers : List String := [
  "basestring", "dict.has_key", "dict.iteritems", "dict.iterkeys", "dict.itervalues", "file", "itertools.izip_longest", "os.getcwdu", "os.popen2", "os.popen3",
  "string.letters", "string.uppercase", "sys.exc_clear", "sys.setdefaultencoding", "unichr", "unicode"]

/-- Modules that came with Python 2.m and are in Python 3 since 3.n -/
def sharedModules : List (String × Nat × Nat) := [
  ("abc", 6, 0), ("argparse", 7, 2), ("ast", 6, 0), ("bz2", 3, 0), ("cProfile", 5, 0), ("collections", 4, 0), ("contextlib", 5, 0), ("csv", 3, 0),
  ("ctypes", 5, 0), ("datetime", 3, 0), ("decimal", 4, 0), ("fractions", 6, 0), ("functools", 5, 0), ("hashlib", 5, 0), ("heapq", 3, 0), ("importlib", 7, 1),
  ("io", 6, 0), ("itertools", 3, 0), ("json", 6, 0), ("logging", 3, 0), ("multiprocessing", 6, 0), ("numbers", 6, 0), ("optparse", 3, 0), ("pkgutil", 3, 0),
  ("platform", 3, 0), ("runpy", 5, 0), ("sqlite3", 5, 0), ("ssl", 6, 0), ("subprocess", 4, 0), ("sysconfig", 7, 2), ("tarfile", 3, 0), ("textwrap", 3, 0),
  ("timeit", 3, 0), ("uuid", 5, 0), ("wsgiref", 5, 0), ("xml.etree.ElementTree", 5, 0), ("zipimport", 3, 0)]

/-- Members and builtins that came with Python 2.m and are in Python 3 since 3.n -/
def sharedMembers : List (String × Nat × Nat) := [
  ("all", 5, 0), ("any", 5, 0), ("bin", 6, 0), ("bytearray", 6, 0), ("collections.Counter", 7, 1), ("collections.OrderedDict", 7, 1),
  ("collections.defaultdict", 5, 0), ("collections.deque", 4, 0), ("collections.namedtuple", 6, 0), ("datetime.timedelta.total_seconds", 7, 2),
  ("enumerate", 3, 0), ("frozenset", 4, 0), ("functools.cmp_to_key", 7, 2), ("functools.reduce", 6, 0), ("functools.total_ordering", 7, 2),
  ("heapq.merge", 6, 0), ("heapq.nlargest", 4, 0), ("itertools.chain.from_iterable", 6, 0), ("itertools.combinations", 6, 0), ("itertools.compress", 7, 1),
  ("itertools.permutations", 6, 0), ("itertools.product", 6, 0), ("math.factorial", 6, 0), ("math.fsum", 6, 0), ("math.gamma", 7, 2), ("memoryview", 7, 0),
  ("next", 6, 0), ("os.path.relpath", 6, 0), ("os.urandom", 4, 0), ("os.walk", 3, 0), ("reversed", 4, 0), ("set", 4, 0), ("sorted", 4, 0),
  ("str.format", 6, 0), ("str.partition", 5, 0), ("subprocess.check_call", 5, 0), ("subprocess.check_output", 7, 1), ("sum", 3, 0)]

/-- Keyword arguments of functions that came with Python 3.n and were not in Python 2 -/
def addedArguments : List (String × String × Nat) := [
  ("argparse.ArgumentParser", "allow_abbrev", 5), ("argparse.ArgumentParser", "exit_on_error", 9), ("bisect.bisect", "key", 10),
  ("collections.namedtuple", "defaults", 7), ("collections.namedtuple", "module", 6), ("concurrent.futures.ThreadPoolExecutor", "thread_name_prefix", 6),
  ("dataclasses.dataclass", "kw_only", 10), ("dataclasses.dataclass", "slots", 10), ("datetime.datetime", "fold", 6), ("functools.lru_cache", "typed", 3),
  ("glob.glob", "recursive", 5), ("glob.glob", "root_dir", 10), ("gzip.open", "encoding", 3), ("hashlib.new", "usedforsecurity", 9), ("heapq.merge", "key", 5),
  ("itertools.accumulate", "initial", 8), ("logging.basicConfig", "encoding", 9), ("logging.basicConfig", "force", 8), ("logging.basicConfig", "handlers", 3),
  ("max", "default", 4), ("min", "default", 4), ("open", "opener", 3), ("os.makedirs", "exist_ok", 2), ("pathlib.Path.mkdir", "exist_ok", 5),
  ("pow", "mod", 8), ("print", "flush", 3), ("shutil.copytree", "dirs_exist_ok", 8), ("shutil.rmtree", "dir_fd", 11), ("statistics.fmean", "weights", 11),
  ("subprocess.Popen", "encoding", 6), ("subprocess.call", "timeout", 3), ("subprocess.check_output", "timeout", 3), ("subprocess.run", "capture_output", 7),
  ("subprocess.run", "text", 7), ("sum", "start", 8), ("tempfile.TemporaryDirectory", "ignore_cleanup_errors", 10), ("threading.Thread", "daemon", 3),
  ("urllib.request.urlopen", "context", 4), ("zip", "strict", 10)]

/-- Others that Python 3.0 dropped -/
def forgottenMembers : List String := [
  "apply", "cmp", "coerce", "execfile", "itertools.ifilter", "itertools.imap", "itertools.izip", "raw_input", "reload", "sys.maxint", "urllib.urlencode",
  "urllib.urlopen", "xrange"]

end Vermin.Spec
