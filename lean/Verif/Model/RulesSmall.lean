import Verif.Model.Rules
/- Generated from the text of vermin/rules.py by tools/gen_rules.py. -/
namespace Vermin.Data
open Vermin

/-- `STRFTIME_REQS` (rules.py:3757-3762) -/
def strftimeReqs : List (String × Req) := [
  ("G", r3 3 6),
  ("V", r3 3 6),
  ("f", rb 2 6 3 0),
  ("u", r3 3 6)]

/-- `BYTES_REQS` (rules.py:3765-3769) -/
def bytesReqs : List (String × Req) := [
  ("a", r3 3 5),
  ("b", r3 3 5),
  ("r", rb 2 7 3 5)]

/-- `ARRAY_TYPECODE_REQS` (rules.py:3772-3775) -/
def arrayTypecodeReqs : List (String × Req) := [
  ("q", r3 3 3),
  ("Q", r3 3 3)]

/-- `CODECS_ERROR_HANDLERS` (rules.py:3778-3782) -/
def codecsErrorHandlers : List (String × Req) := [
  ("surrogateescape", r3 3 1),
  ("surrogatepass", r3 3 1),
  ("namereplace", r3 3 5)]

/-- `DECORATOR_USER_FUNCTIONS` (rules.py:3978-3981) -/
def decoratorUserFunctions : List (String × Req) := [
  ("functools.lru_cache", r3 3 8),
  ("functools.cache", r3 3 9)]

/-- `CODECS_ERRORS_INDICES` (rules.py:3786-3799) -/
def codecsErrorsIndices : List (String × Nat) := [
  ("codecs.encode", 2),
  ("codecs.decode", 2),
  ("codecs.open", 3),
  ("codecs.EncodedFile", 3),
  ("codecs.iterencode", 2),
  ("codecs.iterdecode", 2),
  ("codecs.IncrementalEncoder", 0),
  ("codecs.IncrementalDecoder", 0),
  ("codecs.StreamWriter", 1),
  ("codecs.StreamReader", 1),
  ("codecs.StreamReaderWriter", 3),
  ("codecs.StreamRecorder", 5)]

/-- `CODECS_ENCODINGS_INDICES` (rules.py:3851-3865) -/
def codecsEncodingsIndices : List (String × List Nat) := [
  ("codecs.encode", [1]),
  ("codecs.decode", [1]),
  ("codecs.lookup", [0]),
  ("codecs.getencoder", [0]),
  ("codecs.getdecoder", [0]),
  ("codecs.getincrementalencoder", [0]),
  ("codecs.getincrementaldecoder", [0]),
  ("codecs.getreader", [0]),
  ("codecs.getwriter", [0]),
  ("codecs.open", [2]),
  ("codecs.EncodedFile", [1, 2]),
  ("codecs.iterencode", [2]),
  ("codecs.iterdecode", [2])]

/-- `CODECS_ENCODINGS` (rules.py:3803-3847) -/
def codecsEncodings : List (EncKey × Req) := [
  (.names ["cp273", "273", "ibm273", "csibm273"], r3 3 4),
  (.names ["cp1125", "1125", "ibm1125", "cp866u", "ruscii"], r3 3 4),
  (.names ["cp65001"], r3 3 3),
  (.names ["koi8_t"], r3 3 5),
  (.names ["kz1048", "kz_1048", "strk1048_2002", "kz-1048", "strk1048-2002", "rk1048"], r3 3 5),
  (.names ["oem"], r3 3 6),
  (.names ["base64_codec", "base64-codec"], r3 3 2),
  (.names ["base64", "base_64", "base-64"], r3 3 4),
  (.names ["bz2_codec", "bz2-codec"], r3 3 2),
  (.text "bz2", r3 3 4),
  (.names ["hex_codec", "hex-codec"], r3 3 2),
  (.text "hex", r3 3 4),
  (.names ["quopri_codec", "quopri-codec"], r3 3 2),
  (.names ["quopri", "quotedprintable", "quoted_printable", "quoted-printable"], r3 3 4),
  (.names ["uu_codec", "uu-codec"], r3 3 2),
  (.text "uu", r3 3 4),
  (.names ["zip_codec", "zip-codec"], r3 3 2),
  (.names ["zip", "zlib"], r3 3 4),
  (.names ["rot_13", "rot-13"], r3 3 2),
  (.text "rot13", r3 3 4)]

/-- `BUILTIN_GENERIC_ANNOTATION_TYPES` (rules.py:3869-3948) -/
def builtinGenericAnnotationTypes : List String := [
  "collections.ChainMap",
  "collections.Counter",
  "collections.OrderedDict",
  "collections.UserDict",
  "collections.UserList",
  "collections.abc.AsyncGenerator",
  "collections.abc.AsyncIterable",
  "collections.abc.AsyncIterator",
  "collections.abc.Awaitable",
  "collections.abc.ByteString",
  "collections.abc.Callable",
  "collections.abc.Collection",
  "collections.abc.Container",
  "collections.abc.Coroutine",
  "collections.abc.Generator",
  "collections.abc.ItemsView",
  "collections.abc.Iterable",
  "collections.abc.Iterator",
  "collections.abc.KeysView",
  "collections.abc.Mapping",
  "collections.abc.MappingView",
  "collections.abc.MutableMapping",
  "collections.abc.MutableSequence",
  "collections.abc.MutableSet",
  "collections.abc.Reversible",
  "collections.abc.Sequence",
  "collections.abc.Set",
  "collections.abc.ValuesView",
  "collections.defaultdict",
  "collections.deque",
  "concurrent.futures.Future",
  "concurrent.futures.thread._WorkItem",
  "contextlib.AbstractAsyncContextManager",
  "contextlib.AbstractContextManager",
  "contextvars.ContextVar",
  "contextvars.Token",
  "ctypes.Array",
  "ctypes.LibraryLoader",
  "dataclasses.Field",
  "dict",
  "difflib.SequenceMatcher",
  "enumerate",
  "filecmp.dircmp",
  "fileinput.FileInput",
  "frozenset",
  "functools.cached_property",
  "functools.partial",
  "functools.partialmethod",
  "graphlib.TopologicalSorter",
  "http.cookies.Morsel",
  "itertools.chain",
  "list",
  "logging.LoggerAdapter",
  "logging.StreamHandler",
  "mailbox.Mailbox",
  "mailbox._PartialFile",
  "multiprocessing.managers.ValueProxy",
  "multiprocessing.pool.ApplyResult",
  "multiprocessing.queues.SimpleQueue",
  "multiprocessing.shared_memory.ShareableList",
  "os.DirEntry",
  "queue.Queue",
  "queue.SimpleQueue",
  "re.Match",
  "re.Pattern",
  "set",
  "tempfile.SpooledTemporaryFile",
  "tempfile.TemporaryDirectory",
  "tuple",
  "type",
  "types.AsyncGeneratorType",
  "types.MappingProxyType",
  "unittest.case._AssertRaisesContext",
  "urllib.parse.ParseResult",
  "urllib.parse.SplitResult",
  "weakref.ReferenceType",
  "weakref.WeakSet",
  "weakref.ref"]

/-- `DICT_UNION_SUPPORTED_TYPES` (rules.py:3951-3961) -/
def dictUnionSupportedTypes : List String := [
  "collections.ChainMap",
  "collections.OrderedDict",
  "collections.UserDict",
  "collections.defaultdict",
  "os.environ",
  "os.environb",
  "types.MappingProxyType",
  "weakref.WeakKeyDictionary",
  "weakref.WeakValueDictionary"]

/-- `DICT_UNION_MERGE_SUPPORTED_TYPES` (rules.py:3964-3973) -/
def dictUnionMergeSupportedTypes : List String := [
  "collections.ChainMap",
  "collections.OrderedDict",
  "collections.UserDict",
  "collections.defaultdict",
  "os.environ",
  "os.environb",
  "weakref.WeakKeyDictionary",
  "weakref.WeakValueDictionary"]

end Vermin.Data
