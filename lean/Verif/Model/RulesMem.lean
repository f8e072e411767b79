import Verif.Model.Rules
/- Generated from the text of vermin/rules.py:199-2856 by tools/gen_rules.py. -/
namespace Vermin.Data
open Vermin Vermin.RuleVal

/-- rules.py:199-2856, part 0 -/
def memReqs0 : List (String × RuleVal) := [
  ("bool", .const (rb 2 2 3 0)),
  ("bytearray", .const (rb 2 6 3 0)),
  ("frozenset", .const (rb 2 4 3 0)),
  ("memoryview", .const (rb 2 7 3 0)),
  ("object", .const (rb 2 2 3 0)),
  ("set", .const (rb 2 4 3 0)),
  ("dict", .const (rb 2 2 3 0)),
  ("long", .const (r2 2 0)),
  ("ConfigParser.ConfigParser", .const (r2 2 3)),
  ("ConfigParser.RawConfigParser", .const (r2 2 3)),
  ("ConfigParser.SafeConfigParser", .const (r2 2 3)),
  ("Queue.LifoQueue", .const (r2 2 6)),
  ("Queue.PriorityQueue", .const (r2 2 6)),
  ("SimpleXMLRPCServer.CGIXMLRPCRequestHandler", .const (r2 2 3)),
  ("abc.ABC", .const (r3 3 4)),
  ("argparse.BooleanOptionalAction", .const (r3 3 9)),
  ("asyncio.Barrier", .const (r3 3 11)),
  ("asyncio.BufferedProtocol", .const (r3 3 7)),
  ("asyncio.MultiLoopChildWatcher", .const (r3 3 8)),
  ("asyncio.PidfdChildWatcher", .const (r3 3 9)),
  ("asyncio.Runner", .const (r3 3 11)),
  ("asyncio.TaskGroup", .const (r3 3 11)),
  ("asyncio.ThreadedChildWatcher", .const (r3 3 8)),
  ("calendar.Calendar", .const (rb 2 5 3 0)),
  ("calendar.Day", .const (r3 3 12)),
  ("calendar.HTMLCalendar", .const (rb 2 5 3 0)),
  ("calendar.LocaleHTMLCalendar", .const (rb 2 5 3 0)),
  ("calendar.LocaleTextCalendar", .const (rb 2 5 3 0)),
  ("calendar.Month", .const (r3 3 12)),
  ("calendar.TextCalendar", .const (rb 2 5 3 0)),
  ("codecs.IncrementalEncoder", .const (rb 2 5 3 0)),
  ("collections.ChainMap", .const (r3 3 3)),
  ("collections.Counter", .const (rb 2 7 3 1)),
  ("collections.OrderedDict", .const (rb 2 7 3 1)),
  ("collections.UserDict", .const (r3 3 0)),
  ("collections.UserList", .const (r3 3 0)),
  ("collections.UserString", .const (r3 3 0)),
  ("collections.abc.AsyncGenerator", .const (r3 3 6)),
  ("collections.abc.AsyncIterable", .const (r3 3 5)),
  ("collections.abc.AsyncIterator", .const (r3 3 5)),
  ("collections.abc.Awaitable", .const (r3 3 5)),
  ("collections.abc.Buffer", .const (r3 3 12)),
  ("collections.abc.Collection", .const (r3 3 6)),
  ("collections.abc.Coroutine", .const (r3 3 5)),
  ("collections.abc.Generator", .const (r3 3 5)),
  ("collections.abc.Reversible", .const (r3 3 6)),
  ("collections.defaultdict", .const (rb 2 5 3 0)),
  ("collections.deque", .const (rb 2 4 3 0)),
  ("collections.namedtuple", .const (rb 2 6 3 0)),
  ("contextlib.AbstractAsyncContextManager", .const (r3 3 7)),
  ("contextlib.AbstractContextManager", .const (r3 3 6)),
  ("contextlib.AsyncContextDecorator", .const (r3 3 10)),
  ("contextlib.AsyncExitStack", .const (r3 3 7)),
  ("contextlib.ContextDecorator", .const (r3 3 2)),
  ("contextlib.ExitStack", .const (r3 3 3)),
  ("csv.unix_dialect", .const (r3 3 2)),
  ("ctypes.BigEndianUnion", .const (r3 3 11)),
  ("ctypes.LittleEndianUnion", .const (r3 3 11)),
  ("ctypes.c_bool", .const (rb 2 6 3 0)),
  ("ctypes.c_longdouble", .const (rb 2 6 3 0)),
  ("ctypes.c_ssize_t", .const (rb 2 7 3 2)),
  ("datetime.timezone", .const (r3 3 2)),
  ("difflib.HtmlDiff", .const (rb 2 4 3 0)),
  ("dis.Bytecode", .const (r3 3 4)),
  ("dis.Instruction", .const (r3 3 4)),
  ("dis.Positions", .const (r3 3 11)),
  ("doctest.DocTest", .const (rb 2 4 3 0)),
  ("doctest.DocTestFinder", .const (rb 2 4 3 0)),
  ("doctest.DocTestParser", .const (rb 2 4 3 0)),
  ("doctest.DocTestRunner", .const (rb 2 4 3 0)),
  ("doctest.Example", .const (rb 2 4 3 0)),
  ("doctest.OutputChecker", .const (rb 2 4 3 0)),
  ("email.generator.BytesGenerator", .const (r3 3 2)),
  ("email.generator.DecodedGenerator", .const (rb 2 2 3 0)),
  ("email.mime.application.MIMEApplication", .const (rb 2 5 3 0)),
  ("email.mime.multipart.MIMEMultipart", .const (rb 2 2 3 0)),
  ("email.mime.nonmultipart.MIMENonMultipart", .const (rb 2 2 3 0)),
  ("email.parser.BytesFeedParser", .const (r3 3 2)),
  ("email.parser.BytesHeaderParser", .const (r3 3 3)),
  ("email.parser.BytesParser", .const (r3 3 2)),
  ("email.parser.FeedParser", .const (rb 2 4 3 0)),
  ("email.policy.EmailPolicy", .const (r3 3 3)),
  ("enum.EnumCheck", .const (r3 3 11)),
  ("enum.Flag", .const (r3 3 6)),
  ("enum.FlagBoundary", .const (r3 3 11)),
  ("enum.IntFlag", .const (r3 3 6)),
  ("enum.StrEnum", .const (r3 3 11)),
  ("enum.auto", .const (r3 3 6)),
  ("ftplib.FTP_TLS", .const (rb 2 7 3 2)),
  ("functools.partialmethod", .const (r3 3 4)),
  ("http.HTTPMethod", .const (r3 3 11)),
  ("http.HTTPStatus", .const (r3 3 5)),
  ("http.server.ThreadingHTTPServer", .const (r3 3 7)),
  ("httplib.HTTPConnection", .const (r2 2 0)),
  ("httplib.HTTPResponse", .const (r2 2 0)),
  ("httplib.HTTPSConnection", .const (r2 2 0)),
  ("imaplib.IMAP4_stream", .const (rb 2 3 3 0)),
  ("imp.NullImporter", .const (rb 2 5 3 0)),
  ("importlib.abc.FileLoader", .const (r3 3 3)),
  ("importlib.abc.MetaPathFinder", .const (r3 3 3))]

/-- rules.py:199-2856, part 1 -/
def memReqs1 : List (String × RuleVal) := [
  ("importlib.abc.PathEntryFinder", .const (r3 3 3)),
  ("importlib.abc.ResourceReader", .const (r3 3 7)),
  ("importlib.abc.Traversable", .const (r3 3 9)),
  ("importlib.abc.TraversableReader", .const (r3 3 9)),
  ("importlib.abc.TraversableResources", .const (r3 3 9)),
  ("importlib.machinery.ExtensionFileLoader", .const (r3 3 3)),
  ("importlib.machinery.FileFinder", .const (r3 3 3)),
  ("importlib.machinery.ModuleSpec", .const (r3 3 4)),
  ("importlib.machinery.NamespaceLoader", .const (r3 3 11)),
  ("importlib.machinery.SourceFileLoader", .const (r3 3 3)),
  ("importlib.machinery.SourcelessFileLoader", .const (r3 3 3)),
  ("importlib.machinery.WindowsRegistryFinder", .const (r3 3 3)),
  ("importlib.metadata.EntryPoints", .const (r3 3 10)),
  ("importlib.util.LazyLoader", .const (r3 3 5)),
  ("inspect.BoundArguments", .const (r3 3 3)),
  ("inspect.BufferFlags", .const (r3 3 12)),
  ("inspect.Parameter", .const (r3 3 3)),
  ("inspect.Signature", .const (r3 3 3)),
  ("logging.LoggerAdapter", .const (rb 2 6 3 0)),
  ("logging.NullHandler", .const (rb 2 7 3 1)),
  ("logging.StreamHandler", .const (rb 2 6 3 0)),
  ("logging.handlers.QueueHandler", .const (r3 3 2)),
  ("logging.handlers.QueueListener", .const (r3 3 2)),
  ("logging.handlers.WatchedFileHandler", .const (rb 2 6 3 0)),
  ("multiprocessing.Barrier", .const (r3 3 3)),
  ("nntplib.NNTP_SSL", .const (r3 3 2)),
  ("os.DirEntry", .const (r3 3 5)),
  ("os.PathLike", .const (r3 3 6)),
  ("os.sched_param", .const (r3 3 3)),
  ("os.terminal_size", .const (r3 3 3)),
  ("pickle.PickleBuffer", .const (r3 3 8)),
  ("pkgutil.ModuleInfo", .const (r3 3 6)),
  ("plistlib.UID", .const (r3 3 8)),
  ("popen2.Popen4", .const (r2 2 0)),
  ("poplib.POP3_SSL", .const (rb 2 4 3 0)),
  ("pstats.FunctionProfile", .const (r3 3 9)),
  ("pstats.Stats", .const (rb 2 3 3 0)),
  ("pstats.StatsProfile", .const (r3 3 9)),
  ("py_compile.PycInvalidationMode", .const (r3 3 7)),
  ("queue.SimpleQueue", .const (r3 3 7)),
  ("random.SystemRandom", .const (rb 2 4 3 0)),
  ("selectors.DevpollSelector", .const (r3 3 5)),
  ("signals.Handlers", .const (r3 3 5)),
  ("signals.Sigmasks", .const (r3 3 5)),
  ("signals.Signals", .const (r3 3 5)),
  ("smtplib.LMTP", .const (rb 2 6 3 0)),
  ("smtplib.SMTP_SSL", .const (rb 2 6 3 0)),
  ("sqlite3.Blob", .const (r3 3 11)),
  ("ssl.AlertDescription", .const (r3 3 6)),
  ("ssl.MemoryBIO", .const (r3 3 5)),
  ("ssl.Options", .const (r3 3 6)),
  ("ssl.SSLContext", .const (rb 2 7 3 2)),
  ("ssl.SSLErrorNumber", .const (r3 3 6)),
  ("ssl.SSLObject", .const (r3 3 5)),
  ("ssl.SSLSession", .const (r3 3 6)),
  ("ssl.TLSVersion", .const (r3 3 7)),
  ("ssl.VerifyFlags", .const (r3 3 6)),
  ("ssl.VerifyMode", .const (r3 3 6)),
  ("statistics.NormalDist", .const (r3 3 8)),
  ("string.Formatter", .const (rb 2 6 3 0)),
  ("string.Template", .const (rb 2 4 3 0)),
  ("struct.Struct", .const (rb 2 5 3 0)),
  ("subprocess.CompletedProcess", .const (r3 3 5)),
  ("test.support.EnvironmentVarGuard", .const (r2 2 6)),
  ("test.support.TransientResource", .const (r2 2 6)),
  ("test.support.WarningsRecorder", .const (r2 2 6)),
  ("test.support.os_helper.EnvironmentVarGuard", .const (r3 3 10)),
  ("test.support.socket_helper.TransientResource", .const (r3 3 9)),
  ("test.support.warnings_helper.WarningsRecorder", .const (r3 3 10)),
  ("threading.Barrier", .const (r3 3 2)),
  ("threading.local", .const (rb 2 4 3 0)),
  ("time.struct_time", .const (rb 2 2 3 0)),
  ("traceback.FrameSummary", .const (r3 3 5)),
  ("traceback.StackSummary", .const (r3 3 5)),
  ("traceback.TracebackException", .const (r3 3 5)),
  ("tracemalloc.DomainFilter", .const (r3 3 6)),
  ("types.GenericAlias", .const (r3 3 9)),
  ("types.MappingProxyType", .const (r3 3 3)),
  ("types.SimpleNamespace", .const (r3 3 3)),
  ("typing.AsyncContextManager", .const (r3 3 5)),
  ("typing.AsyncGenerator", .const (r3 3 6)),
  ("typing.AsyncIterable", .const (r3 3 5)),
  ("typing.AsyncIterator", .const (r3 3 5)),
  ("typing.Awaitable", .const (r3 3 5)),
  ("typing.ChainMap", .ifNotBp "typing" (r3 3 5) (r3 3 3)),
  ("typing.Collection", .const (r3 3 6)),
  ("typing.ContextManager", .ifNotBp "typing" (r3 3 5) (rb 2 7 3 3)),
  ("typing.Coroutine", .const (r3 3 5)),
  ("typing.Counter", .ifNotBp "typing" (r3 3 5) (rb 2 7 3 3)),
  ("typing.Deque", .ifNotBp "typing" (r3 3 5) (rb 2 7 3 3)),
  ("typing.ForwardRef", .const (r3 3 7)),
  ("typing.NamedTuple", .const (r3 3 5)),
  ("typing.OrderedDict", .const (r3 3 7)),
  ("typing.Protocol", .ifNotBp "typing" (r3 3 8) (rb 2 7 3 8)),
  ("typing.ParamSpec", .const (r3 3 10)),
  ("typing.SupportsBytes", .ifNotBp "typing" (r3 3 5) (r3 3 2)),
  ("typing.SupportsIndex", .ifNotBp "typing" (r3 3 8) (rb 2 7 3 4)),
  ("typing.SupportsRound", .ifNotBp "typing" (r3 3 5) (r3 3 2)),
  ("typing.TypedDict", .ifNotBp "typing" (r3 3 8) (rb 2 7 3 8)),
  ("typing.TypeAliasType", .const (r3 3 12))]

/-- rules.py:199-2856, part 2 -/
def memReqs2 : List (String × RuleVal) := [
  ("unittest.IsolatedAsyncioTestCase", .const (r3 3 8)),
  ("unittest.TextTestResult", .const (rb 2 7 3 2)),
  ("unittest.mock.AsyncMock", .bpv "mock" (r3 3 8)),
  ("urllib.parse.DefragResult", .const (r3 3 2)),
  ("urllib.parse.DefragResultBytes", .const (r3 3 2)),
  ("urllib.parse.ParseResultBytes", .const (r3 3 2)),
  ("urllib.parse.SplitResultBytes", .const (r3 3 2)),
  ("urllib.request.DataHandler", .const (r3 3 4)),
  ("urllib.request.HTTPPasswordMgrWithPriorAuth", .const (r3 3 5)),
  ("urllib2.HTTPCookieProcessor", .const (r2 2 4)),
  ("urllib2.HTTPErrorProcessor", .const (r2 2 4)),
  ("uuid.SafeUUID", .const (r3 3 7)),
  ("warnings.catch_warnings", .const (rb 2 6 3 0)),
  ("weakref.WeakMethod", .const (r3 3 4)),
  ("weakref.WeakSet", .const (rb 2 7 3 0)),
  ("weakref.finalize", .const (r3 3 4)),
  ("wsgiref.handlers.IISCGIHandler", .const (r3 3 2)),
  ("xml.etree.ElementTree.C14NWriterTarget", .const (r3 3 8)),
  ("xml.etree.ElementTree.XMLPullParser", .const (r3 3 4)),
  ("xml.sax.handler.LexicalHandler", .const (r3 3 10)),
  ("xmlrpclib.MultiCall", .const (r2 2 4)),
  ("zipfile.Path", .const (r3 3 8)),
  ("zipimport.zipimporter", .const (rb 2 7 3 0)),
  ("BaseException", .const (rb 2 5 3 0)),
  ("exceptions.BaseException", .const (r2 2 5)),
  ("BaseExceptionGroup", .const (r3 3 11)),
  ("BlockingIOError", .const (r3 3 3)),
  ("BrokenPipeError", .const (r3 3 3)),
  ("BytesWarning", .const (rb 2 6 3 0)),
  ("exceptions.BytesWarning", .const (r2 2 6)),
  ("ChildProcessError", .const (r3 3 3)),
  ("ConnectionAbortedError", .const (r3 3 3)),
  ("ConnectionError", .const (r3 3 3)),
  ("ConnectionRefusedError", .const (r3 3 3)),
  ("ConnectionResetError", .const (r3 3 3)),
  ("EncodingWarning", .const (r3 3 10)),
  ("ExceptionGroup", .const (r3 3 11)),
  ("FileExistsError", .const (r3 3 3)),
  ("FileNotFoundError", .const (r3 3 3)),
  ("GeneratorExit", .const (rb 2 5 3 0)),
  ("exceptions.GeneratorExit", .const (r2 2 5)),
  ("ImportWarning", .const (rb 2 5 3 0)),
  ("exceptions.ImportWarning", .const (r2 2 5)),
  ("InterruptedError", .const (r3 3 3)),
  ("IsADirectoryError", .const (r3 3 3)),
  ("ModuleNotFoundError", .const (r3 3 6)),
  ("NotADirectoryError", .const (r3 3 3)),
  ("PermissionError", .const (r3 3 3)),
  ("ProcessLookupError", .const (r3 3 3)),
  ("RecursionError", .const (r3 3 5)),
  ("ReferenceError", .const (rb 2 2 3 0)),
  ("exceptions.ReferenceError", .const (r2 2 2)),
  ("ResourceWarning", .const (r3 3 2)),
  ("StopAsyncIteration", .const (r3 3 5)),
  ("StopIteration", .const (rb 2 2 3 0)),
  ("exceptions.StopIteration", .const (r2 2 2)),
  ("TimeoutError", .const (r3 3 3)),
  ("UnicodeDecodeError", .const (rb 2 3 3 0)),
  ("exceptions.UnicodeDecodeError", .const (r2 2 3)),
  ("UnicodeEncodeError", .const (rb 2 3 3 0)),
  ("exceptions.UnicodeEncodeError", .const (r2 2 3)),
  ("UnicodeTranslateError", .const (rb 2 3 3 0)),
  ("exceptions.UnicodeTranslateError", .const (r2 2 3)),
  ("UnicodeWarning", .const (rb 2 5 3 0)),
  ("exceptions.UnicodeWarning", .const (r2 2 5)),
  ("UnboundLocalError", .const (rb 2 0 3 0)),
  ("exceptions.UnboundLocalError", .const (r2 2 0)),
  ("UnicodeError", .const (rb 2 0 3 0)),
  ("exceptions.UnicodeError", .const (r2 2 0)),
  ("WindowsError", .const (rb 2 0 3 0)),
  ("exceptions.WindowsError", .const (r2 2 0)),
  ("ConfigParser.InterpolationMissingOptionError", .const (r2 2 3)),
  ("ConfigParser.InterpolationSyntaxError", .const (r2 2 3)),
  ("concurrent.futures.BrokenExecutor", .const (r3 3 7)),
  ("concurrent.futures.InvalidStateError", .const (r3 3 8)),
  ("concurrent.futures.process.BrokenProcessPool", .const (r3 3 3)),
  ("concurrent.futures.thread.BrokenThreadPool", .const (r3 3 7)),
  ("email.errors.CloseBoundaryNotFoundDefect", .const (r3 3 3)),
  ("email.errors.FirstHeaderLineIsContinuationDefect", .const (rb 2 4 3 0)),
  ("email.errors.MalformedHeaderDefect", .const (rb 2 4 3 0)),
  ("email.errors.MisplacedEnvelopeHeaderDefect", .const (rb 2 4 3 0)),
  ("email.errors.MissingHeaderBodySeparatorDefect", .const (r3 3 3)),
  ("email.errors.MultipartInvariantViolationDefect", .const (rb 2 4 3 0)),
  ("email.errors.NoBoundaryInMultipartDefect", .const (rb 2 4 3 0)),
  ("email.errors.StartBoundaryNotFoundDefect", .const (rb 2 4 3 0)),
  ("gzip.BadGzipFile", .const (r3 3 8)),
  ("htmllib.HTMLParseError", .const (r2 2 4)),
  ("httplib.BadStatusLine", .const (r2 2 0)),
  ("httplib.CannotSendHeader", .const (r2 2 0)),
  ("httplib.CannotSendRequest", .const (r2 2 0)),
  ("httplib.HTTPException", .const (r2 2 0)),
  ("httplib.ImproperConnectionState", .const (r2 2 0)),
  ("httplib.IncompleteRead", .const (r2 2 0)),
  ("httplib.InvalidURL", .const (r2 2 3)),
  ("httplib.NotConnected", .const (r2 2 0)),
  ("httplib.ResponseNotReady", .const (r2 2 0)),
  ("httplib.UnimplementedFileMode", .const (r2 2 0)),
  ("httplib.UnknownProtocol", .const (r2 2 0)),
  ("httplib.UnknownTransferEncoding", .const (r2 2 0)),
  ("json.JSONDecodeError", .const (r3 3 5))]

/-- rules.py:199-2856, part 3 -/
def memReqs3 : List (String × RuleVal) := [
  ("sgmllib.SGMLParseError", .const (r2 2 1)),
  ("shutil.Error", .const (rb 2 3 3 0)),
  ("shutil.SameFileError", .const (r3 3 4)),
  ("smtplib.SMTPNotSupportedError", .const (r3 3 5)),
  ("socket.timeout", .const (rb 2 3 3 0)),
  ("ssl.SSLCertVerificationError", .const (r3 3 7)),
  ("ssl.SSLEOFError", .const (rb 2 7 3 3)),
  ("ssl.SSLSyscallError", .const (rb 2 7 3 3)),
  ("ssl.SSLWantReadError", .const (rb 2 7 3 3)),
  ("ssl.SSLWantWriteError", .const (rb 2 7 3 3)),
  ("ssl.SSLZeroReturnError", .const (rb 2 7 3 3)),
  ("subprocess.SubprocessError", .const (r3 3 3)),
  ("subprocess.TimeoutExpired", .const (r3 3 3)),
  ("tarfile.HeaderError", .const (rb 2 6 3 0)),
  ("threading.BrokenBarrierError", .const (r3 3 2)),
  ("unittest.SkipTest", .const (rb 2 7 3 1)),
  ("urllib.ContentTooShortError", .const (r2 2 5)),
  ("xml.dom.DOMException", .const (rb 2 1 3 0)),
  ("xml.dom.DomstringSizeErr", .const (rb 2 1 3 0)),
  ("xml.dom.HierarchyRequestErr", .const (rb 2 1 3 0)),
  ("xml.dom.IndexSizeErr", .const (rb 2 1 3 0)),
  ("xml.dom.InuseAttributeErr", .const (rb 2 1 3 0)),
  ("xml.dom.InvalidAccessErr", .const (rb 2 1 3 0)),
  ("xml.dom.InvalidCharacterErr", .const (rb 2 1 3 0)),
  ("xml.dom.InvalidModificationErr", .const (rb 2 1 3 0)),
  ("xml.dom.InvalidStateErr", .const (rb 2 1 3 0)),
  ("xml.dom.NamespaceErr", .const (rb 2 1 3 0)),
  ("xml.dom.NoDataAllowedErr", .const (rb 2 1 3 0)),
  ("xml.dom.NoModificationAllowedErr", .const (rb 2 1 3 0)),
  ("xml.dom.NotFoundErr", .const (rb 2 1 3 0)),
  ("xml.dom.NotSupportedErr", .const (rb 2 1 3 0)),
  ("xml.dom.SyntaxErr", .const (rb 2 1 3 0)),
  ("xml.dom.WrongDocumentErr", .const (rb 2 1 3 0)),
  ("zipfile.BadZipFile", .const (r3 3 2)),
  ("aiter", .const (r3 3 10)),
  ("all", .const (rb 2 5 3 0)),
  ("anext", .const (r3 3 10)),
  ("any", .const (rb 2 5 3 0)),
  ("basestring", .const (r2 2 3)),
  ("bin", .const (rb 2 6 3 0)),
  ("breakpoint", .const (r3 3 7)),
  ("bytearray.hex", .const (r3 3 5)),
  ("bytearray.isascii", .const (r3 3 7)),
  ("bytearray.maketrans", .const (r3 3 1)),
  ("bytearray.removeprefix", .const (r3 3 9)),
  ("bytearray.removesuffix", .const (r3 3 9)),
  ("bytes.hex", .const (r3 3 5)),
  ("bytes.isascii", .const (r3 3 7)),
  ("bytes.maketrans", .const (r3 3 1)),
  ("bytes.removeprefix", .const (r3 3 9)),
  ("bytes.removesuffix", .const (r3 3 9)),
  ("callable", .const (rb 2 0 3 2)),
  ("classmethod", .const (rb 2 2 3 0)),
  ("dict.fromkeys", .const (rb 2 3 3 0)),
  ("dict.has_key", .const (r2 2 2)),
  ("dict.iteritems", .const (r2 2 2)),
  ("dict.iterkeys", .const (r2 2 2)),
  ("dict.itervalues", .const (r2 2 2)),
  ("dict.pop", .const (rb 2 3 3 0)),
  ("dict.viewitems", .const (r2 2 7)),
  ("dict.viewkeys", .const (r2 2 7)),
  ("dict.viewvalues", .const (r2 2 7)),
  ("enumerate", .const (rb 2 3 3 0)),
  ("file", .const (r2 2 0)),
  ("file.next", .const (r2 2 3)),
  ("file.xreadlines", .const (r2 2 1)),
  ("float.as_integer_ratio", .const (rb 2 6 3 0)),
  ("float.fromhex", .const (rb 2 6 3 0)),
  ("float.hex", .const (rb 2 6 3 0)),
  ("float.is_integer", .const (rb 2 6 3 0)),
  ("format", .const (rb 2 6 3 0)),
  ("frozenset.isdisjoint", .const (rb 2 6 3 0)),
  ("help", .const (rb 2 2 3 0)),
  ("int.as_integer_ratio", .const (r3 3 8)),
  ("int.bit_count", .const (r3 3 10)),
  ("int.bit_length", .const (rb 2 7 3 1)),
  ("int.from_bytes", .const (r3 3 2)),
  ("int.is_integer", .const (r3 3 12)),
  ("int.to_bytes", .const (r3 3 2)),
  ("iter", .const (rb 2 2 3 0)),
  ("list.clear", .const (r3 3 0)),
  ("list.copy", .const (r3 3 0)),
  ("long.bit_length", .const (r2 2 7)),
  ("memoryview.cast", .const (r3 3 3)),
  ("memoryview.hex", .const (r3 3 5)),
  ("memoryview.release", .const (r3 3 2)),
  ("memoryview.toreadonly", .const (r3 3 8)),
  ("next", .const (rb 2 6 3 0)),
  ("property", .const (rb 2 2 3 0)),
  ("property.deleter", .const (rb 2 6 3 0)),
  ("property.getter", .const (rb 2 6 3 0)),
  ("property.setter", .const (rb 2 6 3 0)),
  ("reversed", .const (rb 2 4 3 0)),
  ("set.isdisjoint", .const (rb 2 6 3 0)),
  ("slice.indices", .const (rb 2 3 3 0)),
  ("sorted", .const (rb 2 4 3 0)),
  ("staticmethod", .const (rb 2 2 3 0)),
  ("str.casefold", .const (r3 3 3)),
  ("str.decode", .const (r2 2 2)),
  ("str.encode", .const (rb 2 0 3 0))]

/-- rules.py:199-2856, part 4 -/
def memReqs4 : List (String × RuleVal) := [
  ("str.format", .const (rb 2 6 3 0)),
  ("str.format_map", .const (r3 3 2)),
  ("str.isascii", .const (r3 3 7)),
  ("str.isdecimal", .const (r3 3 0)),
  ("str.isidentifier", .const (r3 3 0)),
  ("str.isnumeric", .const (r3 3 0)),
  ("str.isprintable", .const (r3 3 0)),
  ("str.maketrans", .const (r3 3 0)),
  ("str.partition", .const (rb 2 5 3 0)),
  ("str.removeprefix", .const (r3 3 9)),
  ("str.removesuffix", .const (r3 3 9)),
  ("str.rpartition", .const (rb 2 5 3 0)),
  ("str.rsplit", .const (rb 2 4 3 0)),
  ("str.zfill", .const (rb 2 2 3 0)),
  ("sum", .const (rb 2 3 3 0)),
  ("super", .const (rb 2 2 3 0)),
  ("type", .const (rb 2 0 3 0)),
  ("unichr", .const (r2 2 0)),
  ("unicode", .const (r2 2 0)),
  ("unicode.isdecimal", .const (r2 2 0)),
  ("unicode.isnumeric", .const (r2 2 0)),
  ("zip", .const (rb 2 0 3 0)),
  ("memoryview.c_contiguous", .const (r3 3 3)),
  ("memoryview.contiguous", .const (r3 3 3)),
  ("memoryview.f_contiguous", .const (r3 3 3)),
  ("memoryview.nbytes", .const (r3 3 3)),
  ("memoryview.obj", .const (r3 3 3)),
  ("dict.items.mapping", .const (r3 3 10)),
  ("dict.keys.mapping", .const (r3 3 10)),
  ("dict.values.mapping", .const (r3 3 10)),
  ("BaseException.__notes__", .const (r3 3 11)),
  ("BaseException.add_note", .const (r3 3 11)),
  ("ConfigParser.SafeConfigParser.set", .const (r2 2 4)),
  ("EasyDialogs.GetArgv", .const (r2 2 0)),
  ("Queue.Queue.join", .const (r2 2 5)),
  ("Queue.Queue.task_done", .const (r2 2 5)),
  ("SimpleHTTPServer.SimpleHTTPRequestHandler.do_GET", .const (r2 2 5)),
  ("SimpleXMLRPCServer.SimpleXMLRPCServer.register_introspection_functions", .const (r2 2 3)),
  ("SocketServer.BaseServer.server_close", .const (r2 2 6)),
  ("SocketServer.BaseServer.shutdown", .const (r2 2 6)),
  ("Tkinter.Tcl", .const (r2 2 4)),
  ("_thread.get_native_id", .const (r3 3 8)),
  ("_winreg.CreateKeyEx", .const (r2 2 7)),
  ("_winreg.DeleteKeyEx", .const (r2 2 7)),
  ("_winreg.ExpandEnvironmentStrings", .const (r2 2 6)),
  ("abc.get_cache_token", .const (r3 3 4)),
  ("abc.update_abstractmethods", .const (r3 3 10)),
  ("argparse.ArgumentParser.parse_intermixed_args", .const (r3 3 7)),
  ("argparse.ArgumentParser.parse_known_intermixed_args", .const (r3 3 7)),
  ("array.array.frombytes", .const (r3 3 2)),
  ("array.array.tobytes", .const (r3 3 2)),
  ("ast.get_source_segment", .const (r3 3 8)),
  ("ast.unparse", .const (r3 3 9)),
  ("asyncio.AbstractChildWatcher.is_active", .const (r3 3 8)),
  ("asyncio.Future.get_loop", .const (r3 3 7)),
  ("asyncio.Handle.cancelled", .const (r3 3 7)),
  ("asyncio.ReadTransport.is_reading", .const (r3 3 7)),
  ("asyncio.Server.get_loop", .const (r3 3 7)),
  ("asyncio.Server.is_serving", .const (r3 3 7)),
  ("asyncio.Server.serve_forever", .const (r3 3 7)),
  ("asyncio.Server.start_serving", .const (r3 3 7)),
  ("asyncio.StreamReader.readuntil", .const (r3 3 5)),
  ("asyncio.StreamWriter.is_closing", .const (r3 3 7)),
  ("asyncio.StreamWriter.start_tls", .const (r3 3 11)),
  ("asyncio.StreamWriter.wait_closed", .const (r3 3 7)),
  ("asyncio.Task._check_future", .const (r3 3 11)),
  ("asyncio.Task.cancelling", .const (r3 3 11)),
  ("asyncio.Task.get_context", .const (r3 3 12)),
  ("asyncio.Task.get_coro", .const (r3 3 8)),
  ("asyncio.Task.get_name", .const (r3 3 8)),
  ("asyncio.Task.set_name", .const (r3 3 8)),
  ("asyncio.Task.uncancel", .const (r3 3 11)),
  ("asyncio.TimerHandle.when", .const (r3 3 7)),
  ("asyncio.WriteTransport.get_write_buffer_limits", .const (r3 3 4)),
  ("asyncio.all_tasks", .const (r3 3 7)),
  ("asyncio.create_eager_task_factory", .const (r3 3 12)),
  ("asyncio.create_task", .const (r3 3 7)),
  ("asyncio.current_task", .const (r3 3 7)),
  ("asyncio.eager_task_factory", .const (r3 3 12)),
  ("asyncio.get_running_loop", .const (r3 3 7)),
  ("asyncio.isfuture", .const (r3 3 5)),
  ("asyncio.loop.connect_accepted_socket", .const (r3 3 5)),
  ("asyncio.loop.create_future", .const (r3 3 5)),
  ("asyncio.loop.get_exception_handler", .const (r3 3 5)),
  ("asyncio.loop.sendfile", .const (r3 3 7)),
  ("asyncio.loop.shutdown_asyncgens", .const (r3 3 6)),
  ("asyncio.loop.shutdown_default_executor", .const (r3 3 9)),
  ("asyncio.loop.sock_recv_into", .const (r3 3 7)),
  ("asyncio.loop.sock_recvfrom", .const (r3 3 11)),
  ("asyncio.loop.sock_recvfrom_into", .const (r3 3 11)),
  ("asyncio.loop.sock_sendfile", .const (r3 3 7)),
  ("asyncio.loop.sock_sendto", .const (r3 3 11)),
  ("asyncio.loop.start_tls", .const (r3 3 7)),
  ("asyncio.run", .const (r3 3 7)),
  ("asyncio.run_coroutine_threadsafe", .const (r3 3 5)),
  ("asyncio.timeout", .const (r3 3 11)),
  ("asyncio.timeout_at", .const (r3 3 11)),
  ("asyncio.to_thread", .const (r3 3 9)),
  ("asyncore.dispatcher.handle_accepted", .const (r3 3 2)),
  ("audioop.alaw2lin", .const (rb 2 5 3 0))]

/-- rules.py:199-2856, part 5 -/
def memReqs5 : List (String × RuleVal) := [
  ("audioop.byteswap", .const (r3 3 4)),
  ("audioop.lin2alaw", .const (rb 2 5 3 0)),
  ("base64.a85decode", .const (r3 3 4)),
  ("base64.a85encode", .const (r3 3 4)),
  ("base64.b32hexdecode", .const (r3 3 10)),
  ("base64.b32hexencode", .const (r3 3 10)),
  ("base64.b85decode", .const (r3 3 4)),
  ("base64.b85encode", .const (r3 3 4)),
  ("base64.decodebytes", .const (r3 3 1)),
  ("base64.encodebytes", .const (r3 3 1)),
  ("bdb.Bdb.get_bpbynumber", .const (r3 3 2)),
  ("bdb.Breakpoint.bpformat", .const (r3 3 2)),
  ("bdb.Breakpoint.clearBreakpoints", .const (r3 3 10)),
  ("bz2.BZ2File.fileno", .const (r3 3 3)),
  ("bz2.BZ2File.peek", .const (r3 3 3)),
  ("bz2.BZ2File.read1", .const (r3 3 3)),
  ("bz2.BZ2File.readable", .const (r3 3 3)),
  ("bz2.BZ2File.readinto", .const (r3 3 3)),
  ("bz2.BZ2File.seekable", .const (r3 3 3)),
  ("bz2.BZ2File.writable", .const (r3 3 3)),
  ("bz2.open", .const (r3 3 3)),
  ("calendar.Calendar.itermonthdays3", .const (r3 3 7)),
  ("calendar.Calendar.itermonthdays4", .const (r3 3 7)),
  ("cgi.FieldStorage.getfirst", .const (rb 2 2 3 0)),
  ("cgi.FieldStorage.getlist", .const (rb 2 2 3 0)),
  ("cmath.isclose", .const (r3 3 5)),
  ("cmath.isfinite", .const (r3 3 2)),
  ("cmath.isinf", .const (rb 2 6 3 0)),
  ("cmath.isnan", .const (rb 2 6 3 0)),
  ("cmath.phase", .const (rb 2 6 3 0)),
  ("cmath.polar", .const (rb 2 6 3 0)),
  ("cmath.rect", .const (rb 2 6 3 0)),
  ("codecs.decode", .const (rb 2 4 3 0)),
  ("codecs.encode", .const (rb 2 4 3 0)),
  ("codecs.getincrementaldecoder", .const (rb 2 5 3 0)),
  ("codecs.getincrementalencoder", .const (rb 2 5 3 0)),
  ("codecs.iterdecode", .const (rb 2 5 3 0)),
  ("codecs.iterencode", .const (rb 2 5 3 0)),
  ("codecs.namereplace_errors", .const (r3 3 5)),
  ("codecs.unregister", .const (r3 3 10)),
  ("collections.Counter.subtract", .const (r3 3 2)),
  ("collections.Counter.total", .const (r3 3 10)),
  ("collections.OrderedDict.move_to_end", .const (r3 3 2)),
  ("collections.UserString.__getnewargs__", .const (r3 3 5)),
  ("collections.UserString.__rmod__", .const (r3 3 5)),
  ("collections.UserString.casefold", .const (r3 3 5)),
  ("collections.UserString.format_map", .const (r3 3 5)),
  ("collections.UserString.isprintable", .const (r3 3 5)),
  ("collections.UserString.maketrans", .const (r3 3 5)),
  ("collections.abc.MutableSequence.clear", .const (r3 3 3)),
  ("collections.abc.MutableSequence.copy", .const (r3 3 3)),
  ("collections.deque.copy", .const (r3 3 5)),
  ("collections.deque.count", .const (rb 2 7 3 2)),
  ("collections.deque.index", .const (r3 3 5)),
  ("collections.deque.insert", .const (r3 3 5)),
  ("collections.deque.remove", .const (rb 2 5 3 0)),
  ("collections.deque.reverse", .const (rb 2 7 3 2)),
  ("compileall.compile_file", .const (rb 2 7 3 2)),
  ("configparser.ConfigParser.read_dict", .bpv "configparser" (r3 3 2)),
  ("configparser.ConfigParser.read_file", .bpv "configparser" (r3 3 2)),
  ("configparser.ConfigParser.read_string", .bpv "configparser" (r3 3 2)),
  ("configparser.RawConfigParser.read_dict", .bpv "configparser" (r3 3 2)),
  ("configparser.RawConfigParser.read_file", .bpv "configparser" (r3 3 2)),
  ("configparser.RawConfigParser.read_string", .bpv "configparser" (r3 3 2)),
  ("contextlib.aclosing", .const (r3 3 10)),
  ("contextlib.chdir", .const (r3 3 11)),
  ("contextlib.nullcontext", .const (r3 3 7)),
  ("contextlib.redirect_stderr", .const (r3 3 5)),
  ("contextlib.redirect_stdout", .const (r3 3 4)),
  ("contextlib.suppress", .const (r3 3 4)),
  ("crypt.mksalt", .const (r3 3 3)),
  ("csv.DictWriter.writeheader", .const (rb 2 7 3 2)),
  ("csv.field_size_limit", .const (rb 2 5 3 0)),
  ("ctypes._CData.from_buffer", .const (rb 2 6 3 0)),
  ("ctypes._CData.from_buffer_copy", .const (rb 2 6 3 0)),
  ("ctypes.get_errno", .const (rb 2 6 3 0)),
  ("ctypes.get_last_error", .const (rb 2 6 3 0)),
  ("ctypes.set_errno", .const (rb 2 6 3 0)),
  ("ctypes.set_last_error", .const (rb 2 6 3 0)),
  ("ctypes.util.find_msvcrt", .const (rb 2 6 3 0)),
  ("curses.get_escdelay", .const (r3 3 9)),
  ("curses.get_tabsize", .const (r3 3 9)),
  ("curses.has_extended_color_support", .const (r3 3 10)),
  ("curses.set_escdelay", .const (r3 3 9)),
  ("curses.set_tabsize", .const (r3 3 9)),
  ("curses.unget_wch", .const (r3 3 3)),
  ("curses.update_lines_cols", .const (r3 3 5)),
  ("curses.window.get_wch", .const (r3 3 3)),
  ("datetime.date.fromisocalendar", .const (r3 3 8)),
  ("datetime.date.fromisoformat", .const (r3 3 7)),
  ("datetime.datetime.fromisocalendar", .const (r3 3 8)),
  ("datetime.datetime.fromisoformat", .const (r3 3 7)),
  ("datetime.datetime.strptime", .const (rb 2 5 3 0)),
  ("datetime.datetime.timestamp", .const (r3 3 3)),
  ("datetime.time.fromisoformat", .const (r3 3 7)),
  ("datetime.timedelta.total_seconds", .const (rb 2 7 3 2)),
  ("decimal.Context.clear_traps", .const (r3 3 3)),
  ("decimal.Context.create_decimal_from_float", .const (rb 2 7 3 1)),
  ("decimal.Decimal.as_integer_ratio", .const (r3 3 6)),
  ("decimal.Decimal.canonical", .const (rb 2 6 3 0))]

/-- rules.py:199-2856, part 6 -/
def memReqs6 : List (String × RuleVal) := [
  ("decimal.Decimal.compare_signal", .const (rb 2 6 3 0)),
  ("decimal.Decimal.compare_total", .const (rb 2 6 3 0)),
  ("decimal.Decimal.compare_total_mag", .const (rb 2 6 3 0)),
  ("decimal.Decimal.conjugate", .const (rb 2 6 3 0)),
  ("decimal.Decimal.copy_abs", .const (rb 2 6 3 0)),
  ("decimal.Decimal.copy_negate", .const (rb 2 6 3 0)),
  ("decimal.Decimal.copy_sign", .const (rb 2 6 3 0)),
  ("decimal.Decimal.exp", .const (rb 2 6 3 0)),
  ("decimal.Decimal.fma", .const (rb 2 6 3 0)),
  ("decimal.Decimal.from_float", .const (rb 2 7 3 1)),
  ("decimal.Decimal.is_canonical", .const (rb 2 6 3 0)),
  ("decimal.Decimal.is_finite", .const (rb 2 6 3 0)),
  ("decimal.Decimal.is_infinite", .const (rb 2 6 3 0)),
  ("decimal.Decimal.is_nan", .const (rb 2 6 3 0)),
  ("decimal.Decimal.is_normal", .const (rb 2 6 3 0)),
  ("decimal.Decimal.is_qnan", .const (rb 2 6 3 0)),
  ("decimal.Decimal.is_signed", .const (rb 2 6 3 0)),
  ("decimal.Decimal.is_snan", .const (rb 2 6 3 0)),
  ("decimal.Decimal.is_subnormal", .const (rb 2 6 3 0)),
  ("decimal.Decimal.is_zero", .const (rb 2 6 3 0)),
  ("decimal.Decimal.ln", .const (rb 2 6 3 0)),
  ("decimal.Decimal.log10", .const (rb 2 6 3 0)),
  ("decimal.Decimal.logb", .const (rb 2 6 3 0)),
  ("decimal.Decimal.logical_and", .const (rb 2 6 3 0)),
  ("decimal.Decimal.logical_invert", .const (rb 2 6 3 0)),
  ("decimal.Decimal.logical_or", .const (rb 2 6 3 0)),
  ("decimal.Decimal.logical_xor", .const (rb 2 6 3 0)),
  ("decimal.Decimal.max_mag", .const (rb 2 6 3 0)),
  ("decimal.Decimal.min_mag", .const (rb 2 6 3 0)),
  ("decimal.Decimal.next_minus", .const (rb 2 6 3 0)),
  ("decimal.Decimal.next_plus", .const (rb 2 6 3 0)),
  ("decimal.Decimal.next_toward", .const (rb 2 6 3 0)),
  ("decimal.Decimal.number_class", .const (rb 2 6 3 0)),
  ("decimal.Decimal.radix", .const (rb 2 6 3 0)),
  ("decimal.Decimal.rotate", .const (rb 2 6 3 0)),
  ("decimal.Decimal.scaleb", .const (rb 2 6 3 0)),
  ("decimal.Decimal.shift", .const (rb 2 6 3 0)),
  ("decimal.Decimal.to_integral_exact", .const (rb 2 6 3 0)),
  ("decimal.Decimal.to_integral_value", .const (rb 2 6 3 0)),
  ("decimal.localcontext", .const (rb 2 5 3 0)),
  ("difflib.SequenceMatcher.get_grouped_opcodes", .const (rb 2 3 3 0)),
  ("difflib.context_diff", .const (rb 2 3 3 0)),
  ("difflib.diff_bytes", .const (r3 3 5)),
  ("difflib.unified_diff", .const (rb 2 3 3 0)),
  ("dis.code_info", .const (r3 3 2)),
  ("dis.get_instructions", .const (r3 3 4)),
  ("dis.show_code", .const (r3 3 2)),
  ("dis.stack_effect", .const (r3 3 4)),
  ("doctest.DocFileSuite", .const (rb 2 4 3 0)),
  ("doctest.DocTestSuite", .const (rb 2 3 3 0)),
  ("doctest.debug", .const (rb 2 3 3 0)),
  ("doctest.debug_src", .const (rb 2 4 3 0)),
  ("doctest.register_optionflag", .const (rb 2 4 3 0)),
  ("doctest.script_from_examples", .const (rb 2 4 3 0)),
  ("doctest.set_unittest_reportflags", .const (rb 2 4 3 0)),
  ("doctest.testfile", .const (rb 2 4 3 0)),
  ("doctest.testsource", .const (rb 2 3 3 0)),
  ("email.generator.Generator.clone", .const (rb 2 2 3 0)),
  ("email.generator.Generator.flatten", .const (rb 2 2 3 0)),
  ("email.message.EmailMessage.get_content_disposition", .const (r3 3 5)),
  ("email.message.Message.__bytes__", .const (r3 3 4)),
  ("email.message.Message.as_bytes", .const (r3 3 4)),
  ("email.message.Message.del_param", .const (rb 2 2 3 0)),
  ("email.message.Message.get_charset", .const (rb 2 2 3 0)),
  ("email.message.Message.get_content_charset", .const (rb 2 2 3 0)),
  ("email.message.Message.get_content_disposition", .const (r3 3 5)),
  ("email.message.Message.get_content_maintype", .const (rb 2 2 3 0)),
  ("email.message.Message.get_content_subtype", .const (rb 2 2 3 0)),
  ("email.message.Message.get_content_type", .const (rb 2 2 3 0)),
  ("email.message.Message.get_default_type", .const (rb 2 2 3 0)),
  ("email.message.Message.replace_header", .const (rb 2 2 3 0)),
  ("email.message.Message.set_charset", .const (rb 2 2 3 0)),
  ("email.message.Message.set_default_type", .const (rb 2 2 3 0)),
  ("email.message.Message.set_param", .const (rb 2 2 3 0)),
  ("email.message.Message.set_type", .const (rb 2 2 3 0)),
  ("email.message_from_binary_file", .const (r3 3 2)),
  ("email.message_from_bytes", .const (r3 3 2)),
  ("email.utils.format_datetime", .const (r3 3 3)),
  ("email.utils.formatdate", .const (rb 2 4 3 0)),
  ("email.utils.localtime", .const (r3 3 3)),
  ("email.utils.parsedate_to_datetime", .const (r3 3 3)),
  ("enum.show_flag_values", .const (r3 3 11)),
  ("filecmp.clear_cache", .const (r3 3 4)),
  ("fileinput.fileno", .const (rb 2 5 3 0)),
  ("fileinput.hook_compressed", .const (rb 2 5 3 0)),
  ("fileinput.hook_encoded", .const (rb 2 5 3 0)),
  ("fnmatch.filter", .const (rb 2 2 3 0)),
  ("fractions.Fraction.as_integer_ratio", .const (r3 3 8)),
  ("fractions.Fraction.is_integer", .const (r3 3 12)),
  ("ftplib.FTP.mlsd", .const (r3 3 3)),
  ("ftplib.FTP_TLS.ccc", .const (r3 3 3)),
  ("functools.cmp_to_key", .const (rb 2 7 3 2)),
  ("functools.reduce", .const (rb 2 6 3 0)),
  ("gc.freeze", .const (r3 3 7)),
  ("gc.get_count", .const (rb 2 5 3 0)),
  ("gc.get_freeze_count", .const (r3 3 7)),
  ("gc.get_objects", .const (rb 2 2 3 0)),
  ("gc.get_referents", .const (rb 2 3 3 0)),
  ("gc.get_referrers", .const (rb 2 2 3 0)),
  ("gc.get_stats", .const (r3 3 4))]

/-- rules.py:199-2856, part 7 -/
def memReqs7 : List (String × RuleVal) := [
  ("gc.is_finalized", .const (r3 3 9)),
  ("gc.is_tracked", .const (rb 2 7 3 1)),
  ("gc.unfreeze", .const (r3 3 7)),
  ("getopt.gnu_getopt", .const (rb 2 3 3 0)),
  ("gettext.GNUTranslations.lgettext", .const (rb 2 4 3 0)),
  ("gettext.GNUTranslations.lngettext", .const (rb 2 4 3 0)),
  ("gettext.GNUTranslations.ngettext", .const (rb 2 3 3 0)),
  ("gettext.GNUTranslations.npgettext", .const (r3 3 8)),
  ("gettext.GNUTranslations.pgettext", .const (r3 3 8)),
  ("gettext.GNUTranslations.ungettext", .const (r2 2 3)),
  ("gettext.NullTranslations.lgettext", .const (rb 2 4 3 0)),
  ("gettext.NullTranslations.lngettext", .const (rb 2 4 3 0)),
  ("gettext.NullTranslations.ngettext", .const (rb 2 3 3 0)),
  ("gettext.NullTranslations.npgettext", .const (r3 3 8)),
  ("gettext.NullTranslations.output_charset", .const (rb 2 4 3 0)),
  ("gettext.NullTranslations.pgettext", .const (r3 3 8)),
  ("gettext.NullTranslations.set_output_charset", .const (rb 2 4 3 0)),
  ("gettext.NullTranslations.ungettext", .const (r2 2 3)),
  ("gettext.bind_textdomain_codeset", .const (rb 2 4 3 0)),
  ("gettext.dngettext", .const (rb 2 3 3 0)),
  ("gettext.dnpgettext", .const (r3 3 8)),
  ("gettext.dpgettext", .const (r3 3 8)),
  ("gettext.ldgettext", .const (rb 2 4 3 0)),
  ("gettext.ldngettext", .const (rb 2 4 3 0)),
  ("gettext.lgettext", .const (rb 2 4 3 0)),
  ("gettext.lngettext", .const (rb 2 4 3 0)),
  ("gettext.ngettext", .const (rb 2 3 3 0)),
  ("gettext.npgettext", .const (r3 3 8)),
  ("gettext.pgettext", .const (r3 3 8)),
  ("glob.escape", .const (r3 3 4)),
  ("glob.iglob", .const (rb 2 5 3 0)),
  ("gzip.GzipFile.peek", .const (r3 3 2)),
  ("gzip.compress", .const (r3 3 2)),
  ("gzip.decompress", .const (r3 3 2)),
  ("hashlib.blake2b", .const (r3 3 6)),
  ("hashlib.blake2s", .const (r3 3 6)),
  ("hashlib.file_digest", .const (r3 3 11)),
  ("hashlib.pbkdf2_hmac", .const (rb 2 7 3 4)),
  ("hashlib.scrypt", .const (r3 3 6)),
  ("hashlib.sha3_224", .const (r3 3 6)),
  ("hashlib.sha3_256", .const (r3 3 6)),
  ("hashlib.sha3_384", .const (r3 3 6)),
  ("hashlib.sha3_512", .const (r3 3 6)),
  ("hashlib.shake_128", .const (r3 3 6)),
  ("hashlib.shake_256", .const (r3 3 6)),
  ("heapq.heappushpop", .const (rb 2 6 3 0)),
  ("heapq.merge", .const (rb 2 6 3 0)),
  ("heapq.nlargest", .const (rb 2 4 3 0)),
  ("heapq.nsmallest", .const (rb 2 4 3 0)),
  ("hmac.compare_digest", .const (rb 2 7 3 3)),
  ("hmac.digest", .const (r3 3 7)),
  ("html.escape", .const (r3 3 2)),
  ("html.unescape", .const (r3 3 4)),
  ("http.client.HTTPConnection.set_debuglevel", .const (r3 3 1)),
  ("http.client.HTTPConnection.set_tunnel", .const (r3 3 2)),
  ("http.client.HTTPResponse.readinto", .const (r3 3 3)),
  ("http.server.BaseHTTPRequestHandler.flush_headers", .const (r3 3 3)),
  ("http.server.BaseHTTPRequestHandler.handle_expect_100", .const (r3 3 2)),
  ("http.server.BaseHTTPRequestHandler.send_response_only", .const (r3 3 2)),
  ("httplib.HTTPConnection.set_tunnel", .const (r2 2 7)),
  ("httplib.HTTPResponse.getheaders", .const (r2 2 4)),
  ("imaplib.IMAP4.deleteacl", .const (rb 2 4 3 0)),
  ("imaplib.IMAP4.enable", .const (r3 3 5)),
  ("imaplib.IMAP4.getannotation", .const (rb 2 5 3 0)),
  ("imaplib.IMAP4.getquota", .const (rb 2 3 3 0)),
  ("imaplib.IMAP4.getquotaroot", .const (rb 2 3 3 0)),
  ("imaplib.IMAP4.login_cram_md5", .const (rb 2 3 3 0)),
  ("imaplib.IMAP4.myrights", .const (rb 2 4 3 0)),
  ("imaplib.IMAP4.namespace", .const (rb 2 3 3 0)),
  ("imaplib.IMAP4.proxyauth", .const (rb 2 3 3 0)),
  ("imaplib.IMAP4.setannotation", .const (rb 2 5 3 0)),
  ("imaplib.IMAP4.setquota", .const (rb 2 3 3 0)),
  ("imaplib.IMAP4.starttls", .const (r3 3 2)),
  ("imaplib.IMAP4.thread", .const (rb 2 4 3 0)),
  ("imaplib.IMAP4.unselect", .const (r3 3 9)),
  ("imp.acquire_lock", .const (rb 2 3 3 0)),
  ("imp.cache_from_source", .const (r3 3 2)),
  ("imp.get_tag", .const (r3 3 2)),
  ("imp.release_lock", .const (rb 2 3 3 0)),
  ("imp.source_from_cache", .const (r3 3 2)),
  ("importlib.abc.InspectLoader.exec_module", .const (r3 3 4)),
  ("importlib.abc.InspectLoader.source_to_code", .const (r3 3 4)),
  ("importlib.abc.Loader.create_module", .const (r3 3 4)),
  ("importlib.abc.Loader.exec_module", .const (r3 3 4)),
  ("importlib.abc.Loader.module_repr", .const (r3 3 3)),
  ("importlib.abc.MetaPathFinder.find_spec", .const (r3 3 4)),
  ("importlib.abc.PathEntryFinder.find_spec", .const (r3 3 4)),
  ("importlib.abc.SourceLoader.exec_module", .const (r3 3 4)),
  ("importlib.abc.SourceLoader.path_stats", .const (r3 3 3)),
  ("importlib.find_loader", .const (r3 3 3)),
  ("importlib.invalidate_caches", .const (r3 3 3)),
  ("importlib.machinery.BuiltinImporter.create_module", .const (r3 3 5)),
  ("importlib.machinery.BuiltinImporter.exec_module", .const (r3 3 5)),
  ("importlib.machinery.ExtensionFileLoader.create_module", .const (r3 3 5)),
  ("importlib.machinery.ExtensionFileLoader.exec_module", .const (r3 3 5)),
  ("importlib.machinery.ExtensionFileLoader.get_filename", .const (r3 3 4)),
  ("importlib.machinery.FileFinder.find_spec", .const (r3 3 4)),
  ("importlib.machinery.FrozenImporter.create_module", .const (r3 3 4)),
  ("importlib.machinery.FrozenImporter.exec_module", .const (r3 3 4)),
  ("importlib.machinery.PathFinder.find_spec", .const (r3 3 4))]

/-- rules.py:199-2856, part 8 -/
def memReqs8 : List (String × RuleVal) := [
  ("importlib.machinery.all_suffixes", .const (r3 3 3)),
  ("importlib.metadata.packages_distributions", .const (r3 3 10)),
  ("importlib.reload", .const (r3 3 4)),
  ("importlib.resources.as_file", .const (r3 3 9)),
  ("importlib.resources.files", .const (r3 3 9)),
  ("importlib.util.cache_from_source", .const (r3 3 4)),
  ("importlib.util.decode_source", .const (r3 3 4)),
  ("importlib.util.find_spec", .const (r3 3 4)),
  ("importlib.util.module_from_spec", .const (r3 3 5)),
  ("importlib.util.resolve_name", .const (r3 3 3)),
  ("importlib.util.source_from_cache", .const (r3 3 4)),
  ("importlib.util.source_hash", .const (r3 3 7)),
  ("importlib.util.spec_from_file_location", .const (r3 3 4)),
  ("importlib.util.spec_from_loader", .const (r3 3 4)),
  ("inspect.BoundArguments.apply_defaults", .const (r3 3 5)),
  ("inspect.Signature.from_callable", .const (r3 3 5)),
  ("inspect.cleandoc", .const (rb 2 6 3 0)),
  ("inspect.get_annotations", .const (r3 3 10)),
  ("inspect.getasyncgenlocals", .const (r3 3 12)),
  ("inspect.getasyncgenstate", .const (r3 3 12)),
  ("inspect.getattr_static", .const (r3 3 2)),
  ("inspect.getcallargs", .const (rb 2 7 3 2)),
  ("inspect.getclosurevars", .const (r3 3 3)),
  ("inspect.getcoroutinelocals", .const (r3 3 5)),
  ("inspect.getcoroutinestate", .const (r3 3 5)),
  ("inspect.getgeneratorlocals", .const (r3 3 3)),
  ("inspect.getgeneratorstate", .const (r3 3 2)),
  ("inspect.getmembers_static", .const (r3 3 11)),
  ("inspect.isabstract", .const (rb 2 6 3 0)),
  ("inspect.isasyncgen", .const (r3 3 6)),
  ("inspect.isasyncgenfunction", .const (r3 3 6)),
  ("inspect.isawaitable", .const (r3 3 5)),
  ("inspect.iscoroutine", .const (r3 3 5)),
  ("inspect.iscoroutinefunction", .const (r3 3 5)),
  ("inspect.isdatadescriptor", .const (rb 2 3 3 0)),
  ("inspect.isgenerator", .const (rb 2 6 3 0)),
  ("inspect.isgeneratorfunction", .const (rb 2 6 3 0)),
  ("inspect.isgetsetdescriptor", .const (rb 2 5 3 0)),
  ("inspect.ismemberdescriptor", .const (rb 2 5 3 0)),
  ("inspect.ismethodwrapper", .const (r3 3 11)),
  ("inspect.markcoroutinefunction", .const (r3 3 12)),
  ("inspect.signature", .const (r3 3 3)),
  ("inspect.unwrap", .const (r3 3 4)),
  ("io.BufferedIOBase.detach", .const (rb 2 7 3 1)),
  ("io.BufferedIOBase.readinto1", .const (r3 3 5)),
  ("io.BytesIO.getbuffer", .const (r3 3 2)),
  ("io.BytesIO.readinto1", .const (r3 3 5)),
  ("io.TextIOBase.detach", .const (rb 2 7 3 1)),
  ("io.TextIOWrapper.reconfigure", .const (r3 3 7)),
  ("io.open_code", .const (r3 3 8)),
  ("io.text_encoding", .const (r3 3 10)),
  ("ipaddress.IPv4Address.__format__", .const (r3 3 9)),
  ("ipaddress.IPv4Network.subnet_of", .bpv "ipaddress" (r3 3 7)),
  ("ipaddress.IPv4Network.supernet_of", .bpv "ipaddress" (r3 3 7)),
  ("ipaddress.IPv6Address.__format__", .const (r3 3 9)),
  ("itertools.accumulate", .const (r3 3 2)),
  ("itertools.batched", .const (r3 3 12)),
  ("itertools.chain.from_iterable", .const (rb 2 6 3 0)),
  ("itertools.combinations", .const (rb 2 6 3 0)),
  ("itertools.combinations_with_replacement", .const (rb 2 7 3 1)),
  ("itertools.compress", .const (rb 2 7 3 1)),
  ("itertools.groupby", .const (rb 2 4 3 0)),
  ("itertools.izip_longest", .const (r2 2 6)),
  ("itertools.pairwise", .const (r3 3 10)),
  ("itertools.permutations", .const (rb 2 6 3 0)),
  ("itertools.product", .const (rb 2 6 3 0)),
  ("itertools.tee", .const (rb 2 4 3 0)),
  ("keyword.issoftkeyword", .const (r3 3 9)),
  ("linecache.lazycache", .const (r3 3 5)),
  ("locale.currency", .const (rb 2 5 3 0)),
  ("locale.delocalize", .const (r3 3 5)),
  ("locale.format_string", .const (rb 2 5 3 0)),
  ("locale.getdefaultlocale", .const (rb 2 0 3 0)),
  ("locale.getencoding", .const (r3 3 11)),
  ("locale.getlocale", .const (rb 2 0 3 0)),
  ("locale.getpreferredencoding", .const (rb 2 3 3 0)),
  ("locale.localize", .const (r3 3 10)),
  ("locale.normalize", .const (rb 2 0 3 0)),
  ("locale.resetlocale", .const (rb 2 0 3 0)),
  ("logging.Logger.getChild", .const (rb 2 7 3 2)),
  ("logging.Logger.hasHandlers", .const (r3 3 2)),
  ("logging.LoggerAdapter._log", .const (r3 3 6)),
  ("logging.LoggerAdapter.getEffectiveLevel", .const (r3 3 2)),
  ("logging.LoggerAdapter.hasHandlers", .const (r3 3 2)),
  ("logging.LoggerAdapter.isEnabledFor", .const (rb 2 7 3 2)),
  ("logging.LoggerAdapter.setLevel", .const (r3 3 2)),
  ("logging.StreamHandler.setStream", .const (r3 3 7)),
  ("logging.config.dictConfig", .const (rb 2 7 3 2)),
  ("logging.getLevelNamesMapping", .const (r3 3 11)),
  ("logging.getLogRecordFactory", .const (r3 3 2)),
  ("logging.handlers.BaseRotatingHandler.rotate", .const (r3 3 3)),
  ("logging.handlers.BaseRotatingHandler.rotation_filename", .const (r3 3 3)),
  ("logging.handlers.QueueListener.enqueue_sentinel", .const (r3 3 3)),
  ("logging.handlers.WatchedFileHandler.reopenIfNeeded", .const (r3 3 6)),
  ("logging.setLogRecordFactory", .const (r3 3 2)),
  ("mailbox.Mailbox.get_bytes", .const (r3 3 2)),
  ("math.acosh", .const (rb 2 6 3 0)),
  ("math.asinh", .const (rb 2 6 3 0)),
  ("math.atanh", .const (rb 2 6 3 0)),
  ("math.cbrt", .const (r3 3 11))]

/-- rules.py:199-2856, part 9 -/
def memReqs9 : List (String × RuleVal) := [
  ("math.comb", .const (r3 3 8)),
  ("math.copysign", .const (rb 2 6 3 0)),
  ("math.dist", .const (r3 3 8)),
  ("math.erf", .const (rb 2 7 3 2)),
  ("math.erfc", .const (rb 2 7 3 2)),
  ("math.exp2", .const (r3 3 11)),
  ("math.expm1", .const (rb 2 7 3 2)),
  ("math.factorial", .const (rb 2 6 3 0)),
  ("math.fsum", .const (rb 2 6 3 0)),
  ("math.gamma", .const (rb 2 7 3 2)),
  ("math.gcd", .const (r3 3 5)),
  ("math.isclose", .const (r3 3 5)),
  ("math.isfinite", .const (r3 3 2)),
  ("math.isinf", .const (rb 2 6 3 0)),
  ("math.isnan", .const (rb 2 6 3 0)),
  ("math.isqrt", .const (r3 3 8)),
  ("math.lcm", .const (r3 3 9)),
  ("math.lgamma", .const (rb 2 7 3 2)),
  ("math.log1p", .const (rb 2 6 3 0)),
  ("math.log2", .const (r3 3 3)),
  ("math.nextafter", .const (r3 3 9)),
  ("math.perm", .const (r3 3 8)),
  ("math.prod", .const (r3 3 8)),
  ("math.remainder", .const (r3 3 7)),
  ("math.sumprod", .const (r3 3 12)),
  ("math.trunc", .const (rb 2 6 3 0)),
  ("math.ulp", .const (r3 3 9)),
  ("mimetypes.MimeTypes.read_windows_registry", .const (rb 2 7 3 2)),
  ("mmap.mmap.madvise", .const (r3 3 8)),
  ("msilib.Database.Close", .const (r3 3 7)),
  ("msvcrt.getwch", .const (rb 2 6 3 0)),
  ("msvcrt.getwche", .const (rb 2 6 3 0)),
  ("msvcrt.putwch", .const (rb 2 6 3 0)),
  ("msvcrt.ungetwch", .const (rb 2 6 3 0)),
  ("multiprocessing.Condition.wait_for", .const (r3 3 3)),
  ("multiprocessing.Pool.starmap", .const (r3 3 3)),
  ("multiprocessing.Pool.starmap_async", .const (r3 3 3)),
  ("multiprocessing.pool.Pool.starmap", .const (r3 3 3)),
  ("multiprocessing.pool.Pool.starmap_async", .const (r3 3 3)),
  ("multiprocessing.Process.close", .const (r3 3 7)),
  ("multiprocessing.Process.kill", .const (r3 3 7)),
  ("multiprocessing.SimpleQueue.close", .const (r3 3 9)),
  ("multiprocessing.connection.wait", .const (r3 3 3)),
  ("multiprocessing.get_all_start_methods", .const (r3 3 4)),
  ("multiprocessing.get_context", .const (r3 3 4)),
  ("multiprocessing.get_start_method", .const (r3 3 4)),
  ("multiprocessing.managers.SyncManager.Barrier", .const (r3 3 3)),
  ("multiprocessing.managers.SyncManager.Condition.wait_for", .const (r3 3 3)),
  ("multiprocessing.parent_process", .const (r3 3 8)),
  ("multiprocessing.set_start_method", .const (r3 3 4)),
  ("nis.get_default_domain", .const (rb 2 5 3 0)),
  ("nntplib.NNTP.description", .const (rb 2 4 3 0)),
  ("nntplib.NNTP.descriptions", .const (rb 2 4 3 0)),
  ("nntplib.NNTP.getcapabilities", .const (r3 3 2)),
  ("nntplib.NNTP.login", .const (r3 3 2)),
  ("nntplib.NNTP.over", .const (r3 3 2)),
  ("nntplib.NNTP.starttls", .const (r3 3 2)),
  ("operator.__call__", .const (r3 3 11)),
  ("operator.__eq__", .const (rb 2 2 3 0)),
  ("operator.__floordiv__", .const (rb 2 2 3 0)),
  ("operator.__ge__", .const (rb 2 2 3 0)),
  ("operator.__gt__", .const (rb 2 2 3 0)),
  ("operator.__iadd__", .const (rb 2 5 3 0)),
  ("operator.__iand__", .const (rb 2 5 3 0)),
  ("operator.__iconcat__", .const (rb 2 5 3 0)),
  ("operator.__idiv__", .const (r2 2 5)),
  ("operator.__ifloordiv__", .const (rb 2 5 3 0)),
  ("operator.__ilshift__", .const (rb 2 5 3 0)),
  ("operator.__imatmul__", .const (r3 3 5)),
  ("operator.__imod__", .const (rb 2 5 3 0)),
  ("operator.__imul__", .const (rb 2 5 3 0)),
  ("operator.__index__", .const (rb 2 5 3 0)),
  ("operator.__ior__", .const (rb 2 5 3 0)),
  ("operator.__ipow__", .const (rb 2 5 3 0)),
  ("operator.__irepeat__", .const (r2 2 5)),
  ("operator.__irshift__", .const (rb 2 5 3 0)),
  ("operator.__isub__", .const (rb 2 5 3 0)),
  ("operator.__itruediv__", .const (rb 2 5 3 0)),
  ("operator.__ixor__", .const (rb 2 5 3 0)),
  ("operator.__le__", .const (rb 2 2 3 0)),
  ("operator.__lt__", .const (rb 2 2 3 0)),
  ("operator.__matmul__", .const (r3 3 5)),
  ("operator.__ne__", .const (rb 2 2 3 0)),
  ("operator.__pow__", .const (rb 2 3 3 0)),
  ("operator.__repeat__", .const (r2 2 0)),
  ("operator.__truediv__", .const (rb 2 2 3 0)),
  ("operator.attrgetter", .const (rb 2 4 3 0)),
  ("operator.call", .const (r3 3 11)),
  ("operator.eq", .const (rb 2 2 3 0)),
  ("operator.floordiv", .const (rb 2 2 3 0)),
  ("operator.ge", .const (rb 2 2 3 0)),
  ("operator.gt", .const (rb 2 2 3 0)),
  ("operator.iadd", .const (rb 2 5 3 0)),
  ("operator.iand", .const (rb 2 5 3 0)),
  ("operator.iconcat", .const (rb 2 5 3 0)),
  ("operator.idiv", .const (r2 2 5)),
  ("operator.ifloordiv", .const (rb 2 5 3 0)),
  ("operator.ilshift", .const (rb 2 5 3 0)),
  ("operator.imatmul", .const (r3 3 5)),
  ("operator.imod", .const (rb 2 5 3 0))]

/-- rules.py:199-2856, part 10 -/
def memReqs10 : List (String × RuleVal) := [
  ("operator.imul", .const (rb 2 5 3 0)),
  ("operator.index", .const (rb 2 5 3 0)),
  ("operator.ior", .const (rb 2 5 3 0)),
  ("operator.ipow", .const (rb 2 5 3 0)),
  ("operator.irepeat", .const (r2 2 5)),
  ("operator.irshift", .const (rb 2 5 3 0)),
  ("operator.is_", .const (rb 2 3 3 0)),
  ("operator.is_not", .const (rb 2 3 3 0)),
  ("operator.isub", .const (rb 2 5 3 0)),
  ("operator.itemgetter", .const (rb 2 4 3 0)),
  ("operator.itruediv", .const (rb 2 5 3 0)),
  ("operator.ixor", .const (rb 2 5 3 0)),
  ("operator.le", .const (rb 2 2 3 0)),
  ("operator.length_hint", .const (r3 3 4)),
  ("operator.lt", .const (rb 2 2 3 0)),
  ("operator.matmul", .const (r3 3 5)),
  ("operator.methodcaller", .const (rb 2 6 3 0)),
  ("operator.ne", .const (rb 2 2 3 0)),
  ("operator.pow", .const (rb 2 3 3 0)),
  ("operator.repeat", .const (r2 2 0)),
  ("operator.truediv", .const (rb 2 2 3 0)),
  ("os.DirEntry.is_junction", .const (r3 3 12)),
  ("os.WCOREDUMP", .const (rb 2 3 3 0)),
  ("os.WIFCONTINUED", .const (rb 2 3 3 0)),
  ("os.add_dll_directory", .const (r3 3 8)),
  ("os.chflags", .const (rb 2 6 3 0)),
  ("os.chroot", .const (rb 2 2 3 0)),
  ("os.closerange", .const (rb 2 6 3 0)),
  ("os.copy_file_range", .const (r3 3 8)),
  ("os.cpu_count", .const (r3 3 4)),
  ("os.eventfd", .const (r3 3 10)),
  ("os.eventfd_read", .const (r3 3 10)),
  ("os.eventfd_write", .const (r3 3 10)),
  ("os.fchdir", .const (rb 2 3 3 0)),
  ("os.fchmod", .const (rb 2 6 3 0)),
  ("os.fchown", .const (rb 2 6 3 0)),
  ("os.fsdecode", .const (r3 3 2)),
  ("os.fsencode", .const (r3 3 2)),
  ("os.fspath", .const (r3 3 6)),
  ("os.fwalk", .const (r3 3 3)),
  ("os.get_blocking", .const (r3 3 5)),
  ("os.get_exec_path", .const (r3 3 2)),
  ("os.get_handle_inheritable", .const (r3 3 4)),
  ("os.get_inheritable", .const (r3 3 4)),
  ("os.get_terminal_size", .const (r3 3 3)),
  ("os.getcwdu", .const (r2 2 3)),
  ("os.getenvb", .const (r3 3 2)),
  ("os.getgrouplist", .const (r3 3 3)),
  ("os.getloadavg", .const (rb 2 3 3 0)),
  ("os.getpgid", .const (rb 2 3 3 0)),
  ("os.getpriority", .const (r3 3 3)),
  ("os.getrandom", .const (r3 3 6)),
  ("os.getresgid", .const (rb 2 7 3 2)),
  ("os.getresuid", .const (rb 2 7 3 2)),
  ("os.getsid", .const (rb 2 4 3 0)),
  ("os.getxattr", .const (r3 3 3)),
  ("os.initgroups", .const (rb 2 7 3 2)),
  ("os.lchflags", .const (rb 2 6 3 0)),
  ("os.lchmod", .const (rb 2 6 3 0)),
  ("os.lchown", .const (rb 2 3 3 0)),
  ("os.listdrives", .const (r3 3 12)),
  ("os.listmounts", .const (r3 3 12)),
  ("os.listvolumes", .const (r3 3 12)),
  ("os.listxattr", .const (r3 3 3)),
  ("os.lockf", .const (r3 3 3)),
  ("os.login_tty", .const (r3 3 11)),
  ("os.major", .const (rb 2 3 3 0)),
  ("os.makedev", .const (rb 2 3 3 0)),
  ("os.memfd_create", .const (r3 3 8)),
  ("os.minor", .const (rb 2 3 3 0)),
  ("os.mknod", .const (rb 2 3 3 0)),
  ("os.path.commonpath", .const (r3 3 5)),
  ("os.path.getctime", .const (rb 2 3 3 0)),
  ("os.path.isdevdrive", .const (r3 3 12)),
  ("os.path.isjunction", .const (r3 3 12)),
  ("os.path.ismount", .const (r3 3 4)),
  ("os.path.lexists", .const (rb 2 4 3 0)),
  ("os.path.realpath", .const (rb 2 2 3 0)),
  ("os.path.relpath", .const (rb 2 6 3 0)),
  ("os.path.splitroot", .const (r3 3 12)),
  ("os.pidfd_open", .const (r3 3 9)),
  ("os.pipe2", .const (r3 3 3)),
  ("os.popen2", .const (r2 2 0)),
  ("os.popen3", .const (r2 2 0)),
  ("os.popen4", .const (r2 2 0)),
  ("os.posix_fadvise", .const (r3 3 3)),
  ("os.posix_fallocate", .const (r3 3 3)),
  ("os.posix_spawn", .const (r3 3 8)),
  ("os.posix_spawnp", .const (r3 3 8)),
  ("os.pread", .const (r3 3 3)),
  ("os.preadv", .const (r3 3 7)),
  ("os.pwrite", .const (r3 3 3)),
  ("os.pwritev", .const (r3 3 7)),
  ("os.readv", .const (r3 3 3)),
  ("os.register_at_fork", .const (r3 3 7)),
  ("os.removexattr", .const (r3 3 3)),
  ("os.replace", .const (r3 3 3)),
  ("os.scandir", .const (r3 3 5)),
  ("os.scandir.close", .const (r3 3 6)),
  ("os.sched_get_priority_max", .const (r3 3 3))]

/-- rules.py:199-2856, part 11 -/
def memReqs11 : List (String × RuleVal) := [
  ("os.sched_get_priority_min", .const (r3 3 3)),
  ("os.sched_getaffinity", .const (r3 3 3)),
  ("os.sched_getparam", .const (r3 3 3)),
  ("os.sched_getscheduler", .const (r3 3 3)),
  ("os.sched_rr_get_interval", .const (r3 3 3)),
  ("os.sched_setaffinity", .const (r3 3 3)),
  ("os.sched_setparam", .const (r3 3 3)),
  ("os.sched_setscheduler", .const (r3 3 3)),
  ("os.sched_yield", .const (r3 3 3)),
  ("os.sendfile", .const (r3 3 3)),
  ("os.set_blocking", .const (r3 3 5)),
  ("os.set_handle_inheritable", .const (r3 3 4)),
  ("os.set_inheritable", .const (r3 3 4)),
  ("os.setgroups", .const (rb 2 2 3 0)),
  ("os.setns", .const (r3 3 12)),
  ("os.setpriority", .const (r3 3 3)),
  ("os.setresgid", .const (rb 2 7 3 2)),
  ("os.setresuid", .const (rb 2 7 3 2)),
  ("os.setxattr", .const (r3 3 3)),
  ("os.splice", .const (r3 3 10)),
  ("os.startfile", .const (rb 2 0 3 0)),
  ("os.sync", .const (r3 3 3)),
  ("os.truncate", .const (r3 3 3)),
  ("os.unshare", .const (r3 3 12)),
  ("os.urandom", .const (rb 2 4 3 0)),
  ("os.wait3", .const (rb 2 5 3 0)),
  ("os.wait4", .const (rb 2 5 3 0)),
  ("os.waitid", .const (r3 3 3)),
  ("os.waitstatus_to_exitcode", .const (r3 3 9)),
  ("os.walk", .const (rb 2 3 3 0)),
  ("os.writev", .const (r3 3 3)),
  ("pathlib.Path.expanduser", .const (r3 3 5)),
  ("pathlib.Path.hardlink_to", .const (r3 3 10)),
  ("pathlib.Path.home", .const (r3 3 5)),
  ("pathlib.Path.is_junction", .const (r3 3 12)),
  ("pathlib.Path.is_mount", .const (r3 3 7)),
  ("pathlib.Path.link_to", .const (r3 3 8)),
  ("pathlib.Path.read_bytes", .const (r3 3 5)),
  ("pathlib.Path.read_text", .const (r3 3 5)),
  ("pathlib.Path.readlink", .const (r3 3 9)),
  ("pathlib.Path.samefile", .const (r3 3 5)),
  ("pathlib.Path.walk", .const (r3 3 12)),
  ("pathlib.Path.write_bytes", .const (r3 3 5)),
  ("pathlib.Path.write_text", .const (r3 3 5)),
  ("pathlib.PurePath.is_relative_to", .const (r3 3 9)),
  ("pathlib.PurePath.with_segments", .const (r3 3 12)),
  ("pathlib.PurePath.with_stem", .const (r3 3 9)),
  ("pickle.Pickler.reducer_override", .const (r3 3 8)),
  ("pickletools.optimize", .const (rb 2 6 3 0)),
  ("pkgutil.get_data", .const (rb 2 6 3 0)),
  ("pkgutil.resolve_name", .const (r3 3 9)),
  ("platform.freedesktop_os_release", .const (r3 3 10)),
  ("platform.linux_distribution", .const (rb 2 6 3 0)),
  ("platform.python_branch", .const (rb 2 6 3 0)),
  ("platform.python_implementation", .const (rb 2 6 3 0)),
  ("platform.python_revision", .const (rb 2 6 3 0)),
  ("platform.win32_edition", .const (r3 3 8)),
  ("platform.win32_is_iot", .const (r3 3 8)),
  ("plistlib.dump", .const (r3 3 4)),
  ("plistlib.dumps", .const (r3 3 4)),
  ("plistlib.load", .const (r3 3 4)),
  ("plistlib.loads", .const (r3 3 4)),
  ("poplib.POP3.capa", .const (r3 3 4)),
  ("poplib.POP3.stls", .const (r3 3 4)),
  ("poplib.POP3.utf8", .const (r3 3 5)),
  ("pprint.PrettyPrinter.format", .const (rb 2 3 3 0)),
  ("pprint.pp", .const (r3 3 8)),
  ("pstats.Stats.get_stats_profile", .const (r3 3 9)),
  ("random.binomialvariate", .const (r3 3 12)),
  ("random.choices", .const (r3 3 6)),
  ("random.getrandbits", .const (rb 2 4 3 0)),
  ("random.getstate", .const (rb 2 1 3 0)),
  ("random.jumpahead", .const (r2 2 1)),
  ("random.randbytes", .const (r3 3 9)),
  ("random.sample", .const (rb 2 3 3 0)),
  ("random.setstate", .const (rb 2 1 3 0)),
  ("random.triangular", .const (rb 2 6 3 0)),
  ("re.Pattern.fullmatch", .const (r3 3 4)),
  ("re.finditer", .const (rb 2 2 3 0)),
  ("re.fullmatch", .const (r3 3 4)),
  ("readline.append_history_file", .const (r3 3 5)),
  ("readline.clear_history", .const (rb 2 4 3 0)),
  ("readline.get_completer", .const (rb 2 3 3 0)),
  ("readline.get_completion_type", .const (rb 2 6 3 0)),
  ("readline.get_current_history_length", .const (rb 2 3 3 0)),
  ("readline.get_history_item", .const (rb 2 3 3 0)),
  ("readline.remove_history_item", .const (rb 2 4 3 0)),
  ("readline.replace_history_item", .const (rb 2 4 3 0)),
  ("readline.set_auto_history", .const (r3 3 6)),
  ("readline.set_completion_display_matches_hook", .const (rb 2 6 3 0)),
  ("readline.set_pre_input_hook", .const (rb 2 3 3 0)),
  ("readline.set_startup_hook", .const (rb 2 3 3 0)),
  ("resource.prlimit", .const (r3 3 4)),
  ("runpy.run_path", .const (rb 2 7 3 2)),
  ("select.devpoll", .const (r3 3 3)),
  ("select.devpoll.close", .const (r3 3 4)),
  ("select.devpoll.fileno", .const (r3 3 4)),
  ("select.epoll", .const (rb 2 6 3 0)),
  ("select.kevent", .const (rb 2 6 3 0)),
  ("select.kqueue", .const (rb 2 6 3 0))]

/-- rules.py:199-2856, part 12 -/
def memReqs12 : List (String × RuleVal) := [
  ("select.poll.modify", .const (rb 2 6 3 0)),
  ("sgmllib.SGMLParser.convert_charref", .const (r2 2 5)),
  ("sgmllib.SGMLParser.convert_codepoint", .const (r2 2 5)),
  ("sgmllib.SGMLParser.convert_entityref", .const (r2 2 5)),
  ("shlex.join", .const (r3 3 8)),
  ("shlex.quote", .const (r3 3 3)),
  ("shlex.shlex.pop_source", .const (rb 2 1 3 0)),
  ("shlex.shlex.push_source", .const (rb 2 1 3 0)),
  ("shlex.split", .const (rb 2 3 3 0)),
  ("shutil.chown", .const (r3 3 3)),
  ("shutil.disk_usage", .const (r3 3 3)),
  ("shutil.get_archive_formats", .const (rb 2 7 3 2)),
  ("shutil.get_terminal_size", .const (r3 3 3)),
  ("shutil.get_unpack_formats", .const (r3 3 2)),
  ("shutil.ignore_patterns", .const (rb 2 6 3 0)),
  ("shutil.make_archive", .const (rb 2 7 3 2)),
  ("shutil.move", .const (rb 2 3 3 0)),
  ("shutil.register_archive_format", .const (rb 2 7 3 2)),
  ("shutil.register_unpack_format", .const (r3 3 2)),
  ("shutil.unpack_archive", .const (r3 3 2)),
  ("shutil.unregister_archive_format", .const (rb 2 7 3 2)),
  ("shutil.unregister_unpack_format", .const (r3 3 2)),
  ("shutil.which", .const (r3 3 3)),
  ("signal.getitimer", .const (rb 2 6 3 0)),
  ("signal.pidfd_send_signal", .const (r3 3 9)),
  ("signal.pthread_kill", .const (r3 3 3)),
  ("signal.pthread_sigmask", .const (r3 3 3)),
  ("signal.raise_signal", .const (r3 3 8)),
  ("signal.set_wakeup_fd", .const (rb 2 6 3 0)),
  ("signal.setitimer", .const (rb 2 6 3 0)),
  ("signal.siginterrupt", .const (rb 2 6 3 0)),
  ("signal.sigpending", .const (r3 3 3)),
  ("signal.sigtimedwait", .const (r3 3 3)),
  ("signal.sigwait", .const (r3 3 3)),
  ("signal.sigwaitinfo", .const (r3 3 3)),
  ("signal.strsignal", .const (r3 3 8)),
  ("signal.valid_signals", .const (r3 3 8)),
  ("site.getsitepackages", .const (rb 2 7 3 2)),
  ("site.getuserbase", .const (rb 2 7 3 2)),
  ("site.getusersitepackages", .const (rb 2 7 3 2)),
  ("smtplib.SMTP.auth", .const (r3 3 5)),
  ("smtplib.SMTP.ehlo_or_helo_if_needed", .const (rb 2 6 3 0)),
  ("smtplib.SMTP.send_message", .const (r3 3 2)),
  ("smtplib.SMTP.starttls", .const (rb 2 6 3 0)),
  ("socket.CMSG_LEN", .const (r3 3 3)),
  ("socket.CMSG_SPACE", .const (r3 3 3)),
  ("socket.close", .const (r3 3 7)),
  ("socket.create_connection", .const (rb 2 6 3 0)),
  ("socket.create_server", .const (r3 3 8)),
  ("socket.fromshare", .const (r3 3 3)),
  ("socket.getaddrinfo", .const (rb 2 2 3 0)),
  ("socket.getdefaulttimeout", .const (rb 2 3 3 0)),
  ("socket.getnameinfo", .const (rb 2 2 3 0)),
  ("socket.has_dualstack_ipv6", .const (r3 3 8)),
  ("socket.if_indextoname", .const (r3 3 3)),
  ("socket.if_nameindex", .const (r3 3 3)),
  ("socket.if_nametoindex", .const (r3 3 3)),
  ("socket.inet_ntop", .const (rb 2 3 3 0)),
  ("socket.inet_pton", .const (rb 2 3 3 0)),
  ("socket.recv_fds", .const (r3 3 9)),
  ("socket.send_fds", .const (r3 3 9)),
  ("socket.setdefaulttimeout", .const (rb 2 3 3 0)),
  ("socket.sethostname", .const (r3 3 3)),
  ("socket.socket.detach", .const (r3 3 2)),
  ("socket.socket.get_inheritable", .const (r3 3 4)),
  ("socket.socket.getblocking", .const (r3 3 7)),
  ("socket.socket.gettimeout", .const (rb 2 3 3 0)),
  ("socket.socket.ioctl", .const (rb 2 6 3 0)),
  ("socket.socket.recv_into", .const (rb 2 5 3 0)),
  ("socket.socket.recvfrom_into", .const (rb 2 5 3 0)),
  ("socket.socket.recvmsg", .const (r3 3 3)),
  ("socket.socket.recvmsg_into", .const (r3 3 3)),
  ("socket.socket.sendfile", .const (r3 3 5)),
  ("socket.socket.sendmsg", .const (r3 3 3)),
  ("socket.socket.sendmsg_afalg", .const (r3 3 6)),
  ("socket.socket.set_inheritable", .const (r3 3 4)),
  ("socket.socket.settimeout", .const (rb 2 3 3 0)),
  ("socket.socket.share", .const (r3 3 3)),
  ("socket.socketpair", .const (rb 2 4 3 0)),
  ("socketserver.BaseServer.service_actions", .const (r3 3 3)),
  ("sysconfig._get_preferred_schemes", .const (r3 3 10)),
  ("sysconfig.get_default_scheme", .const (r3 3 10)),
  ("sysconfig.get_preferred_scheme", .const (r3 3 10)),
  ("sqlite3.Connection.backup", .const (r3 3 7)),
  ("sqlite3.Connection.blobopen", .const (r3 3 11)),
  ("sqlite3.Connection.create_window_function", .const (r3 3 11)),
  ("sqlite3.Connection.deserialize", .const (r3 3 11)),
  ("sqlite3.Connection.enable_load_extension", .const (rb 2 7 3 2)),
  ("sqlite3.Connection.getconfig", .const (r3 3 12)),
  ("sqlite3.Connection.getlimit", .const (r3 3 11)),
  ("sqlite3.Connection.in_transaction", .const (r3 3 2)),
  ("sqlite3.Connection.iter_dump", .const (rb 2 6 3 0)),
  ("sqlite3.Connection.iterdump", .const (rb 2 6 3 0)),
  ("sqlite3.Connection.load_extension", .const (rb 2 7 3 2)),
  ("sqlite3.Connection.serialize", .const (r3 3 11)),
  ("sqlite3.Connection.set_progress_handler", .const (rb 2 6 3 0)),
  ("sqlite3.Connection.set_trace_callback", .const (r3 3 3)),
  ("sqlite3.Connection.setconfig", .const (r3 3 12)),
  ("sqlite3.Connection.setlimit", .const (r3 3 11)),
  ("sqlite3.Row.keys", .const (rb 2 6 3 0))]

/-- rules.py:199-2856, part 13 -/
def memReqs13 : List (String × RuleVal) := [
  ("ssl.RAND_bytes", .const (r3 3 3)),
  ("ssl.RAND_pseudo_bytes", .const (r3 3 3)),
  ("ssl.SSLContext.cert_store_stats", .const (rb 2 7 3 4)),
  ("ssl.SSLContext.get_ca_certs", .const (rb 2 7 3 4)),
  ("ssl.SSLContext.get_ciphers", .const (r3 3 6)),
  ("ssl.SSLContext.load_default_certs", .const (rb 2 7 3 4)),
  ("ssl.SSLContext.load_dh_params", .const (rb 2 7 3 3)),
  ("ssl.SSLContext.set_alpn_protocols", .const (rb 2 7 3 5)),
  ("ssl.SSLContext.set_ecdh_curve", .const (rb 2 7 3 3)),
  ("ssl.SSLContext.set_npn_protocols", .const (rb 2 7 3 3)),
  ("ssl.SSLContext.set_servername_callback", .const (rb 2 7 3 4)),
  ("ssl.SSLSocket.compression", .const (rb 2 7 3 3)),
  ("ssl.SSLSocket.get_channel_binding", .const (rb 2 7 3 3)),
  ("ssl.SSLSocket.selected_alpn_protocol", .const (rb 2 7 3 5)),
  ("ssl.SSLSocket.selected_npn_protocol", .const (rb 2 7 3 3)),
  ("ssl.SSLSocket.sendfile", .const (r3 3 5)),
  ("ssl.SSLSocket.shared_ciphers", .const (r3 3 5)),
  ("ssl.SSLSocket.verify_client_post_handshake", .const (r3 3 8)),
  ("ssl.SSLSocket.version", .const (rb 2 7 3 5)),
  ("ssl._https_verify_certificates", .const (r2 2 7)),
  ("ssl.create_default_context", .const (rb 2 7 3 4)),
  ("ssl.enum_certificates", .const (rb 2 7 3 4)),
  ("ssl.enum_crls", .const (rb 2 7 3 4)),
  ("ssl.get_default_verify_paths", .const (rb 2 7 3 4)),
  ("ssl.match_hostname", .const (rb 2 7 3 2)),
  ("stat.S_ISDOOR", .const (r3 3 4)),
  ("stat.S_ISPORT", .const (r3 3 4)),
  ("stat.S_ISWHT", .const (r3 3 4)),
  ("stat.filemode", .const (r3 3 3)),
  ("statistics.NormalDist.zscore", .const (r3 3 9)),
  ("statistics.correlation", .const (r3 3 10)),
  ("statistics.covariance", .const (r3 3 10)),
  ("statistics.fmean", .const (r3 3 8)),
  ("statistics.geometric_mean", .const (r3 3 8)),
  ("statistics.harmonic_mean", .const (r3 3 6)),
  ("statistics.linear_regression", .const (r3 3 10)),
  ("statistics.multimode", .const (r3 3 8)),
  ("statistics.quantiles", .const (r3 3 8)),
  ("string.Template.get_identifiers", .const (r3 3 11)),
  ("string.Template.is_valid", .const (r3 3 11)),
  ("string.rsplit", .const (r2 2 4)),
  ("struct.Struct.iter_unpack", .const (r3 3 4)),
  ("struct.iter_unpack", .const (r3 3 4)),
  ("struct.pack_into", .const (rb 2 5 3 0)),
  ("struct.unpack_from", .const (rb 2 5 3 0)),
  ("subprocess.Popen.kill", .const (rb 2 6 3 0)),
  ("subprocess.Popen.send_signal", .const (rb 2 6 3 0)),
  ("subprocess.Popen.terminate", .const (rb 2 6 3 0)),
  ("subprocess.check_call", .const (rb 2 5 3 0)),
  ("subprocess.check_output", .const (rb 2 7 3 1)),
  ("subprocess.run", .const (r3 3 5)),
  ("symtable.Symbol.is_annotated", .const (r3 3 6)),
  ("sys._clear_type_cache", .const (rb 2 6 3 0)),
  ("sys._current_frames", .const (rb 2 5 3 0)),
  ("sys._debugmallocstats", .const (r3 3 3)),
  ("sys._enablelegacywindowsfsencoding", .const (r3 3 6)),
  ("sys.addaudithook", .const (r3 3 8)),
  ("sys.audit", .const (r3 3 8)),
  ("sys.breakpointhook", .const (r3 3 7)),
  ("sys.exc_clear", .const (r2 2 3)),
  ("sys.exception", .const (r3 3 11)),
  ("sys.get_asyncgen_hooks", .const (r3 3 6)),
  ("sys.get_coroutine_origin_tracking_depth", .const (r3 3 7)),
  ("sys.get_int_max_str_digits", .const (r3 3 11)),
  ("sys.set_int_max_str_digits", .const (r3 3 11)),
  ("sys.getallocatedblocks", .const (r3 3 4)),
  ("sys.getandroidapilevel", .const (r3 3 7)),
  ("sys.getcheckinterval", .const (rb 2 3 3 0)),
  ("sys.getdlopenflags", .const (rb 2 2 3 0)),
  ("sys.getfilesystemencodeerrors", .const (r3 3 6)),
  ("sys.getfilesystemencoding", .const (rb 2 3 3 0)),
  ("sys.getprofile", .const (rb 2 6 3 0)),
  ("sys.getsizeof", .const (rb 2 6 3 0)),
  ("sys.getswitchinterval", .const (r3 3 2)),
  ("sys.gettrace", .const (rb 2 6 3 0)),
  ("sys.getwindowsversion", .const (rb 2 3 3 0)),
  ("sys.is_finalizing", .const (r3 3 5)),
  ("sys.set_asyncgen_hooks", .const (r3 3 6)),
  ("sys.set_coroutine_origin_tracking_depth", .const (r3 3 7)),
  ("sys.setdefaultencoding", .const (r2 2 0)),
  ("sys.setdlopenflags", .const (rb 2 2 3 0)),
  ("sys.setswitchinterval", .const (r3 3 2)),
  ("sys.settscdump", .const (r2 2 4)),
  ("sys.unraisablehook", .const (r3 3 8)),
  ("tarfile.TarFile.extractall", .const (rb 2 5 3 0)),
  ("tarfile.TarInfo.fromtarfile", .const (rb 2 6 3 0)),
  ("tarfile.TarInfo.replace", .const (r3 3 12)),
  ("telnetlib.Telnet.read_sb_data", .const (rb 2 3 3 0)),
  ("tempfile.NamedTemporaryFile", .const (rb 2 3 3 0)),
  ("tempfile.SpooledTemporaryFile", .const (rb 2 6 3 0)),
  ("tempfile.TemporaryDirectory", .const (r3 3 2)),
  ("tempfile.gettempdir", .const (rb 2 3 3 0)),
  ("tempfile.gettempdirb", .const (r3 3 5)),
  ("tempfile.gettempprefixb", .const (r3 3 5)),
  ("tempfile.mkdtemp", .const (rb 2 3 3 0)),
  ("tempfile.mkstemp", .const (rb 2 3 3 0)),
  ("termios.tcgetwinsize", .const (r3 3 11)),
  ("termios.tcsetwinsize", .const (r3 3 11)),
  ("test.support.adjust_int_max_str_digits", .const (r3 3 11)),
  ("test.support.captured_stdout", .const (rb 2 6 3 0))]

/-- rules.py:199-2856, part 14 -/
def memReqs14 : List (String × RuleVal) := [
  ("test.support.catch_threading_exception", .const (r3 3 8)),
  ("test.support.catch_unraisable_exception", .const (r3 3 8)),
  ("test.support.check__all__", .const (r3 3 6)),
  ("test.support.check_disallow_instantiation", .const (r3 3 10)),
  ("test.support.check_py3k_warnings", .const (r2 2 7)),
  ("test.support.check_syntax_warning", .const (r3 3 8)),
  ("test.support.check_warnings", .const (rb 2 6 3 0)),
  ("test.support.detect_api_mismatch", .const (r3 3 5)),
  ("test.support.flush_std_streams", .const (r3 3 11)),
  ("test.support.import_fresh_module", .const (rb 2 7 3 1)),
  ("test.support.import_module", .const (rb 2 7 3 1)),
  ("test.support.print_warning", .const (r3 3 9)),
  ("test.support.skip_if_broken_multiprocessing_synchronize", .const (r3 3 10)),
  ("test.support.wait_process", .const (r3 3 9)),
  ("textwrap.indent", .const (r3 3 3)),
  ("textwrap.shorten", .const (r3 3 4)),
  ("thread.interrupt_main", .const (r2 2 3)),
  ("thread.stack_size", .const (r2 2 5)),
  ("threading.Condition.notify_all", .const (rb 2 6 3 0)),
  ("threading.Condition.wait_for", .const (r3 3 2)),
  ("threading.Event.is_set", .const (rb 2 6 3 0)),
  ("threading.Thread.is_alive", .const (rb 2 6 3 0)),
  ("threading.active_count", .const (rb 2 6 3 0)),
  ("threading.current_thread", .const (rb 2 6 3 0)),
  ("threading.excepthook", .const (r3 3 8)),
  ("threading.get_ident", .const (r3 3 3)),
  ("threading.get_native_id", .const (r3 3 8)),
  ("threading.getprofile", .const (r3 3 10)),
  ("threading.gettrace", .const (r3 3 10)),
  ("threading.main_thread", .const (r3 3 4)),
  ("threading.setprofile", .const (rb 2 3 3 0)),
  ("threading.setprofile_all_threads", .const (r3 3 12)),
  ("threading.settrace", .const (rb 2 3 3 0)),
  ("threading.settrace_all_threads", .const (r3 3 12)),
  ("threading.stack_size", .const (rb 2 5 3 0)),
  ("time.clock_getres", .const (r3 3 3)),
  ("time.clock_gettime", .const (r3 3 3)),
  ("time.clock_gettime_ns", .const (r3 3 7)),
  ("time.clock_settime", .const (r3 3 3)),
  ("time.clock_settime_ns", .const (r3 3 7)),
  ("time.get_clock_info", .const (r3 3 3)),
  ("time.monotonic", .const (r3 3 3)),
  ("time.monotonic_ns", .const (r3 3 7)),
  ("time.perf_counter", .const (r3 3 3)),
  ("time.perf_counter_ns", .const (r3 3 7)),
  ("time.process_time", .const (r3 3 3)),
  ("time.process_time_ns", .const (r3 3 7)),
  ("time.pthread_getcpuclockid", .const (r3 3 7)),
  ("time.thread_time", .const (r3 3 7)),
  ("time.thread_time_ns", .const (r3 3 7)),
  ("time.time_ns", .const (r3 3 7)),
  ("time.tzset", .const (rb 2 3 3 0)),
  ("timeit.Timer.autorange", .const (r3 3 6)),
  ("timeit.repeat", .const (rb 2 6 3 0)),
  ("timeit.timeit", .const (rb 2 6 3 0)),
  ("tkinter.info_patchlevel", .const (r3 3 11)),
  ("tokenize.generate_tokens", .const (rb 2 2 3 0)),
  ("tokenize.open", .const (r3 3 2)),
  ("tokenize.untokenize", .const (rb 2 5 3 0)),
  ("traceback.StackSummary.format_frame_summary", .const (r3 3 11)),
  ("traceback.TracebackException.print", .const (r3 3 11)),
  ("traceback.clear_frames", .const (r3 3 4)),
  ("traceback.format_exc", .const (rb 2 4 3 0)),
  ("traceback.walk_stack", .const (r3 3 5)),
  ("traceback.walk_tb", .const (r3 3 5)),
  ("tracemalloc.reset_peak", .const (r3 3 9)),
  ("types.CodeType.replace", .const (r3 3 8)),
  ("types.DynamicClassAttribute", .const (r3 3 4)),
  ("types.FrameType.clear", .const (r3 3 4)),
  ("types.coroutine", .const (r3 3 5)),
  ("types.get_original_bases", .const (r3 3 12)),
  ("types.new_class", .const (r3 3 3)),
  ("types.prepare_class", .const (r3 3 3)),
  ("types.resolve_bases", .const (r3 3 7)),
  ("typing.assert_never", .const (r3 3 11)),
  ("typing.assert_type", .const (r3 3 11)),
  ("typing.clear_overloads", .const (r3 3 11)),
  ("typing.get_args", .const (r3 3 8)),
  ("typing.get_origin", .const (r3 3 8)),
  ("typing.get_overloads", .const (r3 3 11)),
  ("typing.is_typeddict", .const (r3 3 10)),
  ("typing.reveal_type", .const (r3 3 11)),
  ("unicodedata.east_asian_width", .const (rb 2 4 3 0)),
  ("unicodedata.is_normalized", .const (r3 3 8)),
  ("unicodedata.normalize", .const (rb 2 3 3 0)),
  ("unittest.IsolatedAsyncioTestCase.enterAsyncContext", .const (r3 3 11)),
  ("unittest.TestCase.addClassCleanup", .const (r3 3 8)),
  ("unittest.TestCase.addCleanup", .const (rb 2 7 3 1)),
  ("unittest.TestCase.addTypeEqualityFunc", .const (rb 2 7 3 1)),
  ("unittest.TestCase.assertCountEqual", .const (r3 3 2)),
  ("unittest.TestCase.assertDictContainsSubset", .const (rb 2 7 3 1)),
  ("unittest.TestCase.assertDictEqual", .const (rb 2 7 3 1)),
  ("unittest.TestCase.assertGreater", .const (rb 2 7 3 1)),
  ("unittest.TestCase.assertGreaterEqual", .const (rb 2 7 3 1)),
  ("unittest.TestCase.assertIn", .const (rb 2 7 3 1)),
  ("unittest.TestCase.assertIs", .const (rb 2 7 3 1)),
  ("unittest.TestCase.assertIsInstance", .const (rb 2 7 3 2)),
  ("unittest.TestCase.assertIsNone", .const (rb 2 7 3 1)),
  ("unittest.TestCase.assertIsNot", .const (rb 2 7 3 1)),
  ("unittest.TestCase.assertIsNotNone", .const (rb 2 7 3 1))]

/-- rules.py:199-2856, part 15 -/
def memReqs15 : List (String × RuleVal) := [
  ("unittest.TestCase.assertItemsEqual", .const (r2 2 7)),
  ("unittest.TestCase.assertLess", .const (rb 2 7 3 1)),
  ("unittest.TestCase.assertLessEqual", .const (rb 2 7 3 1)),
  ("unittest.TestCase.assertListEqual", .const (rb 2 7 3 1)),
  ("unittest.TestCase.assertLogs", .const (r3 3 4)),
  ("unittest.TestCase.assertMultiLineEqual", .const (rb 2 7 3 1)),
  ("unittest.TestCase.assertNoLogs", .const (r3 3 10)),
  ("unittest.TestCase.assertNotIn", .const (rb 2 7 3 1)),
  ("unittest.TestCase.assertNotIsInstance", .const (rb 2 7 3 2)),
  ("unittest.TestCase.assertNotRegex", .const (r3 3 2)),
  ("unittest.TestCase.assertNotRegexpMatches", .const (rb 2 7 3 5)),
  ("unittest.TestCase.assertRaisesRegex", .const (r3 3 2)),
  ("unittest.TestCase.assertRaisesRegexp", .const (rb 2 7 3 1)),
  ("unittest.TestCase.assertRegex", .const (r3 3 2)),
  ("unittest.TestCase.assertRegexpMatches", .const (rb 2 7 3 1)),
  ("unittest.TestCase.assertSequenceEqual", .const (rb 2 7 3 1)),
  ("unittest.TestCase.assertSetEqual", .const (rb 2 7 3 1)),
  ("unittest.TestCase.assertTupleEqual", .const (rb 2 7 3 1)),
  ("unittest.TestCase.assertWarns", .const (r3 3 2)),
  ("unittest.TestCase.assertWarnsRegex", .const (r3 3 2)),
  ("unittest.TestCase.doClassCleanups", .const (r3 3 8)),
  ("unittest.TestCase.doCleanups", .const (rb 2 7 3 1)),
  ("unittest.TestCase.enterClassContext", .const (r3 3 11)),
  ("unittest.TestCase.enterContext", .const (r3 3 11)),
  ("unittest.TestCase.setUpClass", .const (rb 2 7 3 2)),
  ("unittest.TestCase.skipTest", .const (rb 2 7 3 1)),
  ("unittest.TestCase.subTest", .const (r3 3 4)),
  ("unittest.TestCase.tearDownClass", .const (rb 2 7 3 2)),
  ("unittest.TestLoader.discover", .const (rb 2 7 3 2)),
  ("unittest.TestResult.addSubTest", .const (r3 3 4)),
  ("unittest.TestResult.startTestRun", .const (rb 2 7 3 1)),
  ("unittest.TestResult.stopTestRun", .const (rb 2 7 3 1)),
  ("unittest.addModuleCleanup", .const (r3 3 8)),
  ("unittest.doModuleCleanups", .const (r3 3 8)),
  ("unittest.enterModuleContext", .const (r3 3 11)),
  ("unittest.installHandler", .const (rb 2 7 3 2)),
  ("unittest.mock.Mock.assert_called", .const (r3 3 6)),
  ("unittest.mock.Mock.assert_called_once", .const (r3 3 6)),
  ("unittest.mock.Mock.assert_not_called", .const (r3 3 5)),
  ("unittest.mock.seal", .bpv "mock" (r3 3 7)),
  ("unittest.registerResult", .const (rb 2 7 3 2)),
  ("unittest.removeHandler", .const (rb 2 7 3 2)),
  ("unittest.removeResult", .const (rb 2 7 3 2)),
  ("urllib.request.HTTPRedirectHandler.http_error_308", .const (r3 3 11)),
  ("urllib.request.Request.remove_header", .const (r3 3 4)),
  ("urllib.robotparser.RobotFileParser.crawl_delay", .const (r3 3 6)),
  ("urllib.robotparser.RobotFileParser.request_rate", .const (r3 3 6)),
  ("urllib.robotparser.RobotFileParser.site_maps", .const (r3 3 8)),
  ("urllib.urlopen.getcode", .const (r2 2 6)),
  ("urllib2.Request.add_unredirected_header", .const (r2 2 4)),
  ("urllib2.Request.has_header", .const (r2 2 4)),
  ("urlparse.ParseResult.geturl", .const (r2 2 5)),
  ("urlparse.parse_qs", .const (r2 2 6)),
  ("urlparse.parse_qsl", .const (r2 2 6)),
  ("urlparse.urlsplit", .const (r2 2 2)),
  ("urlparse.urlunsplit", .const (r2 2 2)),
  ("venv.EnvBuilder.upgrade_dependencies", .const (r3 3 9)),
  ("venv.create", .const (r3 3 3)),
  ("warnings.warnpy3k", .const (r2 2 6)),
  ("weakref.WeakKeyDictionary.iterkeyrefs", .const (r2 2 5)),
  ("weakref.WeakKeyDictionary.keyrefs", .const (rb 2 5 3 0)),
  ("weakref.WeakValueDictionary.itervaluerefs", .const (r2 2 5)),
  ("weakref.WeakValueDictionary.valuerefs", .const (rb 2 5 3 0)),
  ("webbrowser.controller.open_new_tab", .const (rb 2 5 3 0)),
  ("webbrowser.open_new_tab", .const (rb 2 5 3 0)),
  ("winreg.CreateKeyEx", .const (r3 3 2)),
  ("winreg.DeleteKeyEx", .const (r3 3 2)),
  ("winsound.MessageBeep", .const (rb 2 3 3 0)),
  ("wsgiref.handlers.read_environ", .const (r3 3 2)),
  ("xml.dom.Node.normalize", .const (rb 2 1 3 0)),
  ("xml.dom.minidom.Node.toprettyxml", .const (rb 2 1 3 0)),
  ("xml.etree.ElementTree.Element.extend", .const (rb 2 7 3 2)),
  ("xml.etree.ElementTree.Element.iter", .const (rb 2 7 3 2)),
  ("xml.etree.ElementTree.Element.iterfind", .const (rb 2 7 3 2)),
  ("xml.etree.ElementTree.Element.itertext", .const (rb 2 7 3 2)),
  ("xml.etree.ElementTree.ElementTree.iterfind", .const (rb 2 7 3 2)),
  ("xml.etree.ElementTree.TreeBuilder.comment", .const (r3 3 8)),
  ("xml.etree.ElementTree.TreeBuilder.doctype", .const (rb 2 7 3 2)),
  ("xml.etree.ElementTree.TreeBuilder.end_ns", .const (r3 3 8)),
  ("xml.etree.ElementTree.TreeBuilder.pi", .const (r3 3 8)),
  ("xml.etree.ElementTree.TreeBuilder.start_ns", .const (r3 3 8)),
  ("xml.etree.ElementTree.canonicalize", .const (r3 3 8)),
  ("xml.etree.ElementTree.fromstringlist", .const (rb 2 7 3 2)),
  ("xml.etree.ElementTree.indent", .const (r3 3 9)),
  ("xml.etree.ElementTree.register_namespace", .const (rb 2 7 3 2)),
  ("xml.etree.ElementTree.tostringlist", .const (rb 2 7 3 2)),
  ("xml.parsers.expat.xmlparser.EntityDeclHandler", .const (rb 2 1 3 0)),
  ("xml.parsers.expat.xmlparser.GetInputContext", .const (rb 2 1 3 0)),
  ("xml.parsers.expat.xmlparser.UseForeignDTD", .const (rb 2 3 3 0)),
  ("xml.parsers.expat.xmlparser.XmlDeclHandler", .const (rb 2 1 3 0)),
  ("xml.parsers.expat.xmlparser.buffer_size", .const (rb 2 3 3 0)),
  ("xml.parsers.expat.xmlparser.buffer_text", .const (rb 2 3 3 0)),
  ("xml.parsers.expat.xmlparser.buffer_used", .const (rb 2 3 3 0)),
  ("xml.parsers.expat.xmlparser.ordered_attributes", .const (rb 2 1 3 0)),
  ("xml.parsers.expat.xmlparser.specified_attributes", .const (rb 2 1 3 0)),
  ("xml.sax.saxutils.quoteattr", .const (rb 2 2 3 0)),
  ("xml.sax.saxutils.unescape", .const (rb 2 3 3 0)),
  ("xmlrpc.server.SimpleXMLRPCServer.register_introspection_functions", .const (r3 3 0)),
  ("zipfile.ZipFile.extract", .const (rb 2 6 3 0)),
  ("zipfile.ZipFile.extractall", .const (rb 2 6 3 0))]

/-- rules.py:199-2856, part 16 -/
def memReqs16 : List (String × RuleVal) := [
  ("zipfile.ZipFile.mkdir", .const (r3 3 11)),
  ("zipfile.ZipFile.open", .const (rb 2 6 3 0)),
  ("zipfile.ZipFile.setpassword", .const (rb 2 6 3 0)),
  ("zipfile.ZipInfo.from_file", .const (r3 3 6)),
  ("zipfile.ZipInfo.is_dir", .const (r3 3 6)),
  ("zipimport.zipimporter.create_module", .const (r3 3 10)),
  ("zipimport.zipimporter.exec_module", .const (r3 3 10)),
  ("zipimport.zipimporter.find_spec", .const (r3 3 10)),
  ("zipimport.zipimporter.get_filename", .const (rb 2 7 3 1)),
  ("zipimport.zipimporter.invalidate_caches", .const (r3 3 10)),
  ("zlib.Compress.copy", .const (rb 2 5 3 0)),
  ("zlib.Decompress.copy", .const (rb 2 5 3 0)),
  ("AttributeError.name", .const (r3 3 10)),
  ("AttributeError.obj", .const (r3 3 10)),
  ("BaseException.__suppress_context__", .const (r3 3 3)),
  ("BaseHTTPServer.BaseHTTPRequestHandler.error_content_type", .const (r2 2 6)),
  ("Cookie.Morsel.httponly", .const (r2 2 6)),
  ("ImportError.name", .const (r3 3 3)),
  ("ImportError.path", .const (r3 3 3)),
  ("NameError.name", .const (r3 3 10)),
  ("OSError.filename2", .const (r3 3 4)),
  ("SimpleXMLRPCServer.SimpleXMLRPCRequestHandler.encode_threshold", .const (r2 2 7)),
  ("SimpleXMLRPCServer.SimpleXMLRPCRequestHandler.rpc_paths", .const (r2 2 5)),
  ("StopIteration.value", .const (r3 3 3)),
  ("SyntaxError.end_lineno", .const (r3 3 10)),
  ("SyntaxError.end_offset", .const (r3 3 10)),
  ("__future__.absolute_import", .const (rb 2 5 3 0)),
  ("__future__.annotations", .const (r3 3 7)),
  ("__future__.division", .const (rb 2 2 3 0)),
  ("__future__.generator_stop", .const (r3 3 5)),
  ("__future__.generators", .const (rb 2 2 3 0)),
  ("__future__.nested_scopes", .const (rb 2 1 3 0)),
  ("__future__.print_function", .const (rb 2 6 3 0)),
  ("__future__.unicode_literals", .const (rb 2 6 3 0)),
  ("__future__.with_statement", .const (rb 2 5 3 0)),
  ("_thread.TIMEOUT_MAX", .const (r3 3 2)),
  ("ast.PyCF_ALLOW_TOP_LEVEL_AWAIT", .const (r3 3 8)),
  ("ast.PyCF_TYPE_COMMENTS", .const (r3 3 8)),
  ("bz2.BZ2Decompressor.eof", .const (r3 3 3)),
  ("bz2.BZ2Decompressor.needs_input", .const (r3 3 5)),
  ("calendar.HTMLCalendar.cssclass_month", .const (r3 3 7)),
  ("calendar.HTMLCalendar.cssclass_month_head", .const (r3 3 7)),
  ("calendar.HTMLCalendar.cssclass_noday", .const (r3 3 7)),
  ("calendar.HTMLCalendar.cssclass_year", .const (r3 3 7)),
  ("calendar.HTMLCalendar.cssclass_year_head", .const (r3 3 7)),
  ("calendar.HTMLCalendar.cssclasses_weekday_head", .const (r3 3 7)),
  ("calendar.Day.FRIDAY", .const (r3 3 12)),
  ("calendar.Day.MONDAY", .const (r3 3 12)),
  ("calendar.Day.SATURDAY", .const (r3 3 12)),
  ("calendar.Day.SUNDAY", .const (r3 3 12)),
  ("calendar.Day.THURSDAY", .const (r3 3 12)),
  ("calendar.Day.TUESDAY", .const (r3 3 12)),
  ("calendar.Day.WEDNESDAY", .const (r3 3 12)),
  ("calendar.FRIDAY", .const (r3 3 10)),
  ("calendar.MONDAY", .const (r3 3 10)),
  ("calendar.SATURDAY", .const (r3 3 10)),
  ("calendar.THURSDAY", .const (r3 3 10)),
  ("calendar.TUESDAY", .const (r3 3 10)),
  ("calendar.WEDNESDAY", .const (r3 3 10)),
  ("calendar.SUNDAY", .const (r3 3 10)),
  ("calendar.Month.JANUARY", .const (r3 3 12)),
  ("calendar.Month.FEBRUARY", .const (r3 3 12)),
  ("calendar.Month.MARCH", .const (r3 3 12)),
  ("calendar.Month.APRIL", .const (r3 3 12)),
  ("calendar.Month.MAY", .const (r3 3 12)),
  ("calendar.Month.JUNE", .const (r3 3 12)),
  ("calendar.Month.JULY", .const (r3 3 12)),
  ("calendar.Month.AUGUST", .const (r3 3 12)),
  ("calendar.Month.SEPTEMBER", .const (r3 3 12)),
  ("calendar.Month.OCTOBER", .const (r3 3 12)),
  ("calendar.Month.NOVEMBER", .const (r3 3 12)),
  ("calendar.Month.DECEMBER", .const (r3 3 12)),
  ("calendar.JANUARY", .const (r3 3 12)),
  ("calendar.FEBRUARY", .const (r3 3 12)),
  ("calendar.MARCH", .const (r3 3 12)),
  ("calendar.APRIL", .const (r3 3 12)),
  ("calendar.MAY", .const (r3 3 12)),
  ("calendar.JUNE", .const (r3 3 12)),
  ("calendar.JULY", .const (r3 3 12)),
  ("calendar.AUGUST", .const (r3 3 12)),
  ("calendar.SEPTEMBER", .const (r3 3 12)),
  ("calendar.OCTOBER", .const (r3 3 12)),
  ("calendar.NOVEMBER", .const (r3 3 12)),
  ("calendar.DECEMBER", .const (r3 3 12)),
  ("classmethod.__wrapped__", .const (r3 3 10)),
  ("cmath.inf", .const (r3 3 6)),
  ("cmath.infj", .const (r3 3 6)),
  ("cmath.nan", .const (r3 3 6)),
  ("cmath.nanj", .const (r3 3 6)),
  ("cmath.tau", .const (r3 3 6)),
  ("collections.deque.maxlen", .const (rb 2 7 3 1)),
  ("collections.namedtuple._field_defaults", .const (r3 3 7)),
  ("configparser.DuplicateSectionError.lineno", .bpv "configparser" (r3 3 2)),
  ("configparser.DuplicateSectionError.source", .bpv "configparser" (r3 3 2)),
  ("configparser.ParsingError.source", .bpv "configparser" (r3 3 2)),
  ("cookielib.Cookie.rfc2109", .const (r2 2 5)),
  ("cookielib.DefaultCookiePolicy.rfc2109_as_netscape", .const (r2 2 5)),
  ("dataclasses.KW_ONLY", .const (r3 3 10)),
  ("crypt.METHOD_BLOWFISH", .const (r3 3 7)),
  ("crypt.METHOD_CRYPT", .const (r3 3 3))]

/-- rules.py:199-2856, part 17 -/
def memReqs17 : List (String × RuleVal) := [
  ("crypt.METHOD_MD5", .const (r3 3 3)),
  ("crypt.METHOD_SHA256", .const (r3 3 3)),
  ("crypt.METHOD_SHA512", .const (r3 3 3)),
  ("crypt.methods", .const (r3 3 3)),
  ("csv.QUOTE_NOTNULL", .const (r3 3 12)),
  ("csv.QUOTE_STRINGS", .const (r3 3 12)),
  ("csv.csvreader.fieldnames", .const (rb 2 6 3 0)),
  ("csv.csvreader.line_num", .const (rb 2 5 3 0)),
  ("curses.A_ITALIC", .const (r3 3 7)),
  ("curses.ncurses_version", .const (r3 3 8)),
  ("curses.window.encoding", .const (r3 3 3)),
  ("datetime.UTC", .const (r3 3 11)),
  ("datetime.datetime.fold", .const (r3 3 6)),
  ("datetime.time.fold", .const (r3 3 6)),
  ("decimal.HAVE_CONTEXTVAR", .const (r3 3 7)),
  ("difflib.SequenceMatcher.bjunk", .const (r3 3 2)),
  ("difflib.SequenceMatcher.bpopular", .const (r3 3 2)),
  ("dis.Instruction.positions", .const (r3 3 11)),
  ("doctest.COMPARISON_FLAGS", .const (rb 2 4 3 0)),
  ("doctest.DONT_ACCEPT_BLANKLINE", .const (rb 2 4 3 0)),
  ("doctest.ELLIPSIS", .const (rb 2 4 3 0)),
  ("doctest.FAIL_FAST", .const (r3 3 4)),
  ("doctest.IGNORE_EXCEPTION_DETAIL", .const (rb 2 4 3 0)),
  ("doctest.NORMALIZE_WHITESPACE", .const (rb 2 4 3 0)),
  ("doctest.REPORTING_FLAGS", .const (rb 2 4 3 0)),
  ("doctest.REPORT_CDIFF", .const (rb 2 4 3 0)),
  ("doctest.REPORT_NDIFF", .const (rb 2 4 3 0)),
  ("doctest.REPORT_ONLY_FIRST_FAILURE", .const (rb 2 4 3 0)),
  ("doctest.REPORT_UDIFF", .const (rb 2 4 3 0)),
  ("doctest.SKIP", .const (rb 2 5 3 0)),
  ("email.message.Message.defects", .const (rb 2 4 3 0)),
  ("email.policy.EmailPolicy.content_manager", .const (r3 3 4)),
  ("email.policy.Policy.message_factory", .const (r3 3 6)),
  ("errno.EQFULL", .const (r3 3 11)),
  ("fcntl.F_ADD_SEALS", .const (r3 3 8)),
  ("fcntl.F_DUP2FD", .const (r3 3 11)),
  ("fcntl.F_DUP2FD_CLOEXEC", .const (r3 3 11)),
  ("fcntl.F_GETPATH", .const (r3 3 9)),
  ("fcntl.F_GETPIPE_SZ", .const (r3 3 10)),
  ("fcntl.F_GET_SEALS", .const (r3 3 8)),
  ("fcntl.F_OFD_GETLK", .const (r3 3 9)),
  ("fcntl.F_OFD_SETLK", .const (r3 3 9)),
  ("fcntl.F_OFD_SETLKW", .const (r3 3 9)),
  ("fcntl.F_SEAL_GROW", .const (r3 3 8)),
  ("fcntl.F_SEAL_SEAL", .const (r3 3 8)),
  ("fcntl.F_SEAL_SHRINK", .const (r3 3 8)),
  ("fcntl.F_SEAL_WRITE", .const (r3 3 8)),
  ("fcntl.F_SETPIPE_SZ", .const (r3 3 10)),
  ("file.encoding", .const (r2 2 3)),
  ("file.errors", .const (r2 2 6)),
  ("filecmp.DEFAULT_IGNORES", .const (r3 3 4)),
  ("gc.callbacks", .const (r3 3 3)),
  ("gzip.GzipFile.mtime", .const (r3 3 1)),
  ("hashlib.algorithms", .const (r2 2 7)),
  ("hashlib.algorithms_available", .const (rb 2 7 3 2)),
  ("hashlib.algorithms_guaranteed", .const (rb 2 7 3 2)),
  ("hashlib.hash.name", .const (r3 3 4)),
  ("hmac.HMAC.block_size", .const (r3 3 4)),
  ("hmac.HMAC.name", .const (r3 3 4)),
  ("html.entities.html5", .const (r3 3 3)),
  ("htmlentitydefs.codepoint2name", .const (r2 2 3)),
  ("htmlentitydefs.name2codepoint", .const (r2 2 3)),
  ("http.HTTPStatus.EARLY_HINTS", .const (r3 3 9)),
  ("http.HTTPStatus.IM_A_TEAPOT", .const (r3 3 9)),
  ("http.HTTPStatus.MISDIRECTED_REQUEST", .const (r3 3 7)),
  ("http.HTTPStatus.TOO_EARLY", .const (r3 3 9)),
  ("http.HTTPStatus.UNAVAILABLE_FOR_LEGAL_REASONS", .const (r3 3 8)),
  ("http.client.HTTPConnection.blocksize", .const (r3 3 7)),
  ("httplib.responses", .const (r2 2 5)),
  ("imaplib.IMAP4.utf8_enabled", .const (r3 3 5)),
  ("importlib.machinery.BYTECODE_SUFFIXES", .const (r3 3 3)),
  ("importlib.machinery.DEBUG_BYTECODE_SUFFIXES", .const (r3 3 3)),
  ("importlib.machinery.EXTENSION_SUFFIXES", .const (r3 3 3)),
  ("importlib.machinery.OPTIMIZED_BYTECODE_SUFFIXES", .const (r3 3 3)),
  ("importlib.machinery.SOURCE_SUFFIXES", .const (r3 3 3)),
  ("importlib.metadata.metadata.json", .const (r3 3 10)),
  ("importlib.util.MAGIC_NUMBER", .const (r3 3 4)),
  ("inspect.CO_ASYNC_GENERATOR", .const (r3 3 6)),
  ("inspect.CO_COROUTINE", .const (r3 3 5)),
  ("inspect.CO_ITERABLE_COROUTINE", .const (r3 3 5)),
  ("inspect.Parameter.kind.description", .const (r3 3 8)),
  ("io.SEEK_CUR", .const (rb 2 7 3 1)),
  ("io.SEEK_END", .const (rb 2 7 3 1)),
  ("io.SEEK_SET", .const (rb 2 7 3 1)),
  ("io.TextIOWrapper.write_through", .const (r3 3 7)),
  ("ipaddress.IPv4Address.is_global", .bpv "ipaddress" (r3 3 4)),
  ("ipaddress.IPv4Address.reverse_pointer", .bpv "ipaddress" (r3 3 5)),
  ("ipaddress.IPv6Address.is_global", .bpv "ipaddress" (r3 3 4)),
  ("keyword.softkwlist", .const (r3 3 9)),
  ("logging.Formatter.default_msec_format", .const (r3 3 3)),
  ("logging.Formatter.default_time_format", .const (r3 3 3)),
  ("logging.LogRecord.funcName", .const (rb 2 5 3 0)),
  ("logging.LogRecord.processName", .const (rb 2 6 3 0)),
  ("logging.LoggerAdapter.manager", .const (r3 3 6)),
  ("logging.StreamHandler.terminator", .const (r3 3 2)),
  ("logging.handlers.BaseRotatingHandler.namer", .const (r3 3 3)),
  ("logging.handlers.BaseRotatingHandler.rotator", .const (r3 3 3)),
  ("logging.lastResort", .const (r3 3 2)),
  ("lzma.LZMADecompressor.needs_input", .const (r3 3 5)),
  ("marshal.version", .const (rb 2 4 3 0))]

/-- rules.py:199-2856, part 18 -/
def memReqs18 : List (String × RuleVal) := [
  ("math.inf", .const (r3 3 5)),
  ("math.nan", .const (r3 3 5)),
  ("math.tau", .const (r3 3 6)),
  ("mmap.ACCESS_DEFAULT", .const (r3 3 7)),
  ("mmap.MADV_AUTOSYNC", .const (r3 3 8)),
  ("mmap.MADV_CORE", .const (r3 3 8)),
  ("mmap.MADV_DODUMP", .const (r3 3 8)),
  ("mmap.MADV_DOFORK", .const (r3 3 8)),
  ("mmap.MADV_DONTDUMP", .const (r3 3 8)),
  ("mmap.MADV_DONTFORK", .const (r3 3 8)),
  ("mmap.MADV_DONTNEED", .const (r3 3 8)),
  ("mmap.MADV_FREE", .const (r3 3 8)),
  ("mmap.MADV_FREE_REUSABLE", .const (r3 3 8)),
  ("mmap.MADV_FREE_REUSE", .const (r3 3 8)),
  ("mmap.MADV_HUGEPAGE", .const (r3 3 8)),
  ("mmap.MADV_HWPOISON", .const (r3 3 8)),
  ("mmap.MADV_MERGEABLE", .const (r3 3 8)),
  ("mmap.MADV_NOCORE", .const (r3 3 8)),
  ("mmap.MADV_NOHUGEPAGE", .const (r3 3 8)),
  ("mmap.MADV_NORMAL", .const (r3 3 8)),
  ("mmap.MADV_NOSYNC", .const (r3 3 8)),
  ("mmap.MADV_PROTECT", .const (r3 3 8)),
  ("mmap.MADV_RANDOM", .const (r3 3 8)),
  ("mmap.MADV_REMOVE", .const (r3 3 8)),
  ("mmap.MADV_SEQUENTIAL", .const (r3 3 8)),
  ("mmap.MADV_SOFT_OFFLINE", .const (r3 3 8)),
  ("mmap.MADV_UNMERGEABLE", .const (r3 3 8)),
  ("mmap.MADV_WILLNEED", .const (r3 3 8)),
  ("mmap.MAP_POPULATE", .const (r3 3 10)),
  ("mmap.MAP_STACK", .const (r3 3 11)),
  ("mmap.mmap.closed", .const (r3 3 2)),
  ("multiprocessing.Process.sentinel", .const (r3 3 3)),
  ("nntplib.NNTP.nntp_implementation", .const (r3 3 2)),
  ("nntplib.NNTP.nntp_version", .const (r3 3 2)),
  ("object.__match_args__", .const (r3 3 10)),
  ("os.CLD_CONTINUED", .const (r3 3 3)),
  ("os.CLD_DUMPED", .const (r3 3 3)),
  ("os.CLD_EXITED", .const (r3 3 3)),
  ("os.CLD_KILLED", .const (r3 3 9)),
  ("os.CLD_STOPPED", .const (r3 3 9)),
  ("os.CLD_TRAPPED", .const (r3 3 3)),
  ("os.EFD_CLOEXEC", .const (r3 3 10)),
  ("os.EFD_NONBLOCK", .const (r3 3 10)),
  ("os.EFD_SEMAPHORE", .const (r3 3 10)),
  ("os.EX_CANTCREAT", .const (rb 2 3 3 0)),
  ("os.EX_CONFIG", .const (rb 2 3 3 0)),
  ("os.EX_DATAERR", .const (rb 2 3 3 0)),
  ("os.EX_IOERR", .const (rb 2 3 3 0)),
  ("os.EX_NOHOST", .const (rb 2 3 3 0)),
  ("os.EX_NOINPUT", .const (rb 2 3 3 0)),
  ("os.EX_NOPERM", .const (rb 2 3 3 0)),
  ("os.EX_NOTFOUND", .const (rb 2 3 3 0)),
  ("os.EX_NOUSER", .const (rb 2 3 3 0)),
  ("os.EX_OK", .const (rb 2 3 3 0)),
  ("os.EX_OSERR", .const (rb 2 3 3 0)),
  ("os.EX_OSFILE", .const (rb 2 3 3 0)),
  ("os.EX_PROTOCOL", .const (rb 2 3 3 0)),
  ("os.EX_SOFTWARE", .const (rb 2 3 3 0)),
  ("os.EX_TEMPFAIL", .const (rb 2 3 3 0)),
  ("os.EX_UNAVAILABLE", .const (rb 2 3 3 0)),
  ("os.EX_USAGE", .const (rb 2 3 3 0)),
  ("os.F_LOCK", .const (r3 3 3)),
  ("os.F_TEST", .const (r3 3 3)),
  ("os.F_TLOCK", .const (r3 3 3)),
  ("os.F_ULOCK", .const (r3 3 3)),
  ("os.GRND_NONBLOCK", .const (r3 3 6)),
  ("os.GRND_RANDOM", .const (r3 3 6)),
  ("os.MFD_ALLOW_SEALING", .const (r3 3 8)),
  ("os.MFD_CLOEXEC", .const (r3 3 8)),
  ("os.MFD_HUGETLB", .const (r3 3 8)),
  ("os.MFD_HUGE_16GB", .const (r3 3 8)),
  ("os.MFD_HUGE_16MB", .const (r3 3 8)),
  ("os.MFD_HUGE_1GB", .const (r3 3 8)),
  ("os.MFD_HUGE_1MB", .const (r3 3 8)),
  ("os.MFD_HUGE_256MB", .const (r3 3 8)),
  ("os.MFD_HUGE_2GB", .const (r3 3 8)),
  ("os.MFD_HUGE_2MB", .const (r3 3 8)),
  ("os.MFD_HUGE_32MB", .const (r3 3 8)),
  ("os.MFD_HUGE_512KB", .const (r3 3 8)),
  ("os.MFD_HUGE_512MB", .const (r3 3 8)),
  ("os.MFD_HUGE_64KB", .const (r3 3 8)),
  ("os.MFD_HUGE_8MB", .const (r3 3 8)),
  ("os.MFD_HUGE_MASK", .const (r3 3 8)),
  ("os.MFD_HUGE_SHIFT", .const (r3 3 8)),
  ("os.O_CLOEXEC", .const (r3 3 3)),
  ("os.O_EVTONLY", .const (r3 3 10)),
  ("os.O_FSYNC", .const (r3 3 10)),
  ("os.O_NOFOLLOW_ANY", .const (r3 3 10)),
  ("os.O_PATH", .const (r3 3 4)),
  ("os.O_SYMLINK", .const (r3 3 10)),
  ("os.O_TMPFILE", .const (r3 3 4)),
  ("os.PIDFD_NONBLOCK", .const (r3 3 12)),
  ("os.POSIX_FADV_DONTNEED", .const (r3 3 3)),
  ("os.POSIX_FADV_NOREUSE", .const (r3 3 3)),
  ("os.POSIX_FADV_NORMAL", .const (r3 3 3)),
  ("os.POSIX_FADV_RANDOM", .const (r3 3 3)),
  ("os.POSIX_FADV_SEQUENTIAL", .const (r3 3 3)),
  ("os.POSIX_FADV_WILLNEED", .const (r3 3 3)),
  ("os.POSIX_SPAWN_CLOSE", .const (r3 3 8)),
  ("os.POSIX_SPAWN_DUP2", .const (r3 3 8))]

/-- rules.py:199-2856, part 19 -/
def memReqs19 : List (String × RuleVal) := [
  ("os.POSIX_SPAWN_OPEN", .const (r3 3 8)),
  ("os.PRIO_DARWIN_BG", .const (r3 3 12)),
  ("os.PRIO_DARWIN_NONUI", .const (r3 3 12)),
  ("os.PRIO_DARWIN_PROCESS", .const (r3 3 12)),
  ("os.PRIO_DARWIN_THREAD", .const (r3 3 12)),
  ("os.PRIO_PGRP", .const (r3 3 3)),
  ("os.PRIO_PROCESS", .const (r3 3 3)),
  ("os.PRIO_USER", .const (r3 3 3)),
  ("os.P_ALL", .const (r3 3 3)),
  ("os.P_PGID", .const (r3 3 3)),
  ("os.P_PID", .const (r3 3 3)),
  ("os.P_PIDFD", .const (r3 3 9)),
  ("os.RTLD_DEEPBIND", .const (r3 3 3)),
  ("os.RTLD_GLOBAL", .const (r3 3 3)),
  ("os.RTLD_LAZY", .const (r3 3 3)),
  ("os.RTLD_LOCAL", .const (r3 3 3)),
  ("os.RTLD_NODELETE", .const (r3 3 3)),
  ("os.RTLD_NOLOAD", .const (r3 3 3)),
  ("os.RTLD_NOW", .const (r3 3 3)),
  ("os.RWF_APPEND", .const (r3 3 10)),
  ("os.RWF_DSYNC", .const (r3 3 7)),
  ("os.RWF_HIPRI", .const (r3 3 7)),
  ("os.RWF_NOWAIT", .const (r3 3 7)),
  ("os.RWF_SYNC", .const (r3 3 7)),
  ("os.SCHED_BATCH", .const (r3 3 3)),
  ("os.SCHED_FIFO", .const (r3 3 3)),
  ("os.SCHED_IDLE", .const (r3 3 3)),
  ("os.SCHED_OTHER", .const (r3 3 3)),
  ("os.SCHED_RESET_ON_FORK", .const (r3 3 3)),
  ("os.SCHED_RR", .const (r3 3 3)),
  ("os.SCHED_SPORADIC", .const (r3 3 3)),
  ("os.SEEK_CUR", .const (rb 2 5 3 0)),
  ("os.SEEK_DATA", .const (r3 3 3)),
  ("os.SEEK_END", .const (rb 2 5 3 0)),
  ("os.SEEK_HOLE", .const (r3 3 3)),
  ("os.SEEK_SET", .const (rb 2 5 3 0)),
  ("os.SF_MNOWAIT", .const (r3 3 3)),
  ("os.SF_NOCACHE", .const (r3 3 11)),
  ("os.SF_NODISKIO", .const (r3 3 3)),
  ("os.SF_SYNC", .const (r3 3 3)),
  ("os.SPLICE_F_MORE", .const (r3 3 10)),
  ("os.SPLICE_F_MOVE", .const (r3 3 10)),
  ("os.SPLICE_F_NONBLOCK", .const (r3 3 10)),
  ("os.ST_APPEND", .const (r3 3 4)),
  ("os.ST_IMMUTABLE", .const (r3 3 4)),
  ("os.ST_MANDLOCK", .const (r3 3 4)),
  ("os.ST_NOATIME", .const (r3 3 4)),
  ("os.ST_NODEV", .const (r3 3 4)),
  ("os.ST_NODIRATIME", .const (r3 3 4)),
  ("os.ST_NOEXEC", .const (r3 3 4)),
  ("os.ST_NOSUID", .const (r3 3 2)),
  ("os.ST_RDONLY", .const (r3 3 2)),
  ("os.ST_RELATIME", .const (r3 3 4)),
  ("os.ST_SYNCHRONOUS", .const (r3 3 4)),
  ("os.ST_WRITE", .const (r3 3 4)),
  ("os.WCONTINUED", .const (rb 2 3 3 0)),
  ("os.WEXITED", .const (r3 3 3)),
  ("os.WNOWAIT", .const (r3 3 3)),
  ("os.WSTOPPED", .const (r3 3 3)),
  ("os.WUNTRACED", .const (rb 2 3 3 0)),
  ("os.XATTR_CREATE", .const (r3 3 3)),
  ("os.XATTR_REPLACE", .const (r3 3 3)),
  ("os.XATTR_SIZE_MAX", .const (r3 3 3)),
  ("os._COPYFILE_ACL", .const (r3 3 11)),
  ("os._COPYFILE_STAT", .const (r3 3 11)),
  ("os._COPYFILE_XATTR", .const (r3 3 11)),
  ("os.devnull", .const (rb 2 4 3 0)),
  ("os.environb", .const (r3 3 2)),
  ("os.extsep", .const (rb 2 2 3 0)),
  ("os.killpg", .const (rb 2 3 3 0)),
  ("os.path.supports_unicode_filenames", .const (rb 2 3 3 0)),
  ("os.stat.st_atime", .const (rb 2 2 3 0)),
  ("os.stat.st_atime_ns", .const (r3 3 3)),
  ("os.stat.st_attrs", .const (rb 2 2 3 0)),
  ("os.stat.st_birthtime", .const (rb 2 5 3 0)),
  ("os.stat.st_birthtime_ns", .const (r3 3 12)),
  ("os.stat.st_blksize", .const (rb 2 2 3 0)),
  ("os.stat.st_blocks", .const (rb 2 2 3 0)),
  ("os.stat.st_ctime", .const (rb 2 2 3 0)),
  ("os.stat.st_ctime_ns", .const (r3 3 3)),
  ("os.stat.st_dev", .const (rb 2 2 3 0)),
  ("os.stat.st_file_attributes", .const (r3 3 5)),
  ("os.stat.st_flags", .const (rb 2 2 3 0)),
  ("os.stat.st_ftype", .const (rb 2 2 3 0)),
  ("os.stat.st_gen", .const (rb 2 5 3 0)),
  ("os.stat.st_gid", .const (rb 2 2 3 0)),
  ("os.stat.st_ino", .const (rb 2 2 3 0)),
  ("os.stat.st_mode", .const (rb 2 2 3 0)),
  ("os.stat.st_mtime", .const (rb 2 2 3 0)),
  ("os.stat.st_mtime_ns", .const (r3 3 3)),
  ("os.stat.st_nlink", .const (rb 2 2 3 0)),
  ("os.stat.st_obtype", .const (rb 2 2 3 0)),
  ("os.stat.st_rdev", .const (rb 2 2 3 0)),
  ("os.stat.st_reparse_tag", .const (r3 3 8)),
  ("os.stat.st_size", .const (rb 2 2 3 0)),
  ("os.stat.st_uid", .const (rb 2 2 3 0)),
  ("os.statvfs.f_bavail", .const (rb 2 2 3 0)),
  ("os.statvfs.f_bfree", .const (rb 2 2 3 0)),
  ("os.statvfs.f_blocks", .const (rb 2 2 3 0)),
  ("os.statvfs.f_bsize", .const (rb 2 2 3 0))]

/-- rules.py:199-2856, part 20 -/
def memReqs20 : List (String × RuleVal) := [
  ("os.statvfs.f_favail", .const (rb 2 2 3 0)),
  ("os.statvfs.f_ffree", .const (rb 2 2 3 0)),
  ("os.statvfs.f_files", .const (rb 2 2 3 0)),
  ("os.statvfs.f_flag", .const (rb 2 2 3 0)),
  ("os.statvfs.f_frsize", .const (rb 2 2 3 0)),
  ("os.statvfs.f_fsid", .const (r3 3 7)),
  ("os.statvfs.f_namemax", .const (rb 2 2 3 0)),
  ("os.supports_bytes_environ", .const (r3 3 2)),
  ("os.supports_dir_fd", .const (r3 3 3)),
  ("os.supports_effective_ids", .const (r3 3 3)),
  ("os.supports_fd", .const (r3 3 3)),
  ("os.supports_follow_symlinks", .const (r3 3 3)),
  ("pickle.HIGHEST_PROTOCOL", .const (rb 2 3 3 0)),
  ("pickle.Pickler.dispatch_table", .const (r3 3 3)),
  ("plistlib.FMT_BINARY", .const (r3 3 4)),
  ("plistlib.FMT_XML", .const (r3 3 4)),
  ("pstats.SortKey", .const (r3 3 7)),
  ("pyclbr.Class.children", .const (r3 3 7)),
  ("pyclbr.Class.end_lineno", .const (r3 3 10)),
  ("pyclbr.Class.parent", .const (r3 3 7)),
  ("pyclbr.Function.children", .const (r3 3 7)),
  ("pyclbr.Function.end_lineno", .const (r3 3 10)),
  ("pyclbr.Function.is_async", .const (r3 3 10)),
  ("pyclbr.Function.parent", .const (r3 3 7)),
  ("range.start", .const (r3 3 3)),
  ("range.step", .const (r3 3 3)),
  ("range.stop", .const (r3 3 3)),
  ("re.NOFLAG", .const (r3 3 11)),
  ("re.U", .const (rb 2 0 3 0)),
  ("re.UNICODE", .const (rb 2 0 3 0)),
  ("re.error.colno", .const (r3 3 5)),
  ("re.error.lineno", .const (r3 3 5)),
  ("re.error.msg", .const (r3 3 5)),
  ("re.error.pattern", .const (r3 3 5)),
  ("re.error.pos", .const (r3 3 5)),
  ("reprlib.Repr.fillvalue", .const (r3 3 11)),
  ("repr.Repr.maxfrozenset", .const (r2 2 4)),
  ("repr.Repr.maxset", .const (r2 2 4)),
  ("resource.RLIMIT_KQUEUES", .const (r3 3 10)),
  ("resource.RLIMIT_MSGQUEUE", .const (r3 3 4)),
  ("resource.RLIMIT_NICE", .const (r3 3 4)),
  ("resource.RLIMIT_NPTS", .const (r3 3 4)),
  ("resource.RLIMIT_RTPRIO", .const (r3 3 4)),
  ("resource.RLIMIT_RTTIME", .const (r3 3 4)),
  ("resource.RLIMIT_SBSIZE", .const (r3 3 4)),
  ("resource.RLIMIT_SIGPENDING", .const (r3 3 4)),
  ("resource.RLIMIT_SWAP", .const (r3 3 4)),
  ("resource.RUSAGE_THREAD", .const (r3 3 2)),
  ("resource.getrusage.ru_idrss", .const (rb 2 3 3 0)),
  ("resource.getrusage.ru_inblock", .const (rb 2 3 3 0)),
  ("resource.getrusage.ru_isrss", .const (rb 2 3 3 0)),
  ("resource.getrusage.ru_ixrss", .const (rb 2 3 3 0)),
  ("resource.getrusage.ru_majflt", .const (rb 2 3 3 0)),
  ("resource.getrusage.ru_maxrss", .const (rb 2 3 3 0)),
  ("resource.getrusage.ru_minflt", .const (rb 2 3 3 0)),
  ("resource.getrusage.ru_msgrcv", .const (rb 2 3 3 0)),
  ("resource.getrusage.ru_msgsnd", .const (rb 2 3 3 0)),
  ("resource.getrusage.ru_nivcsw", .const (rb 2 3 3 0)),
  ("resource.getrusage.ru_nsignals", .const (rb 2 3 3 0)),
  ("resource.getrusage.ru_nswap", .const (rb 2 3 3 0)),
  ("resource.getrusage.ru_nvcsw", .const (rb 2 3 3 0)),
  ("resource.getrusage.ru_oublock", .const (rb 2 3 3 0)),
  ("resource.getrusage.ru_stime", .const (rb 2 3 3 0)),
  ("resource.getrusage.ru_utime", .const (rb 2 3 3 0)),
  ("sched.scheduler.queue", .const (rb 2 6 3 0)),
  ("select.EPOLLEXCLUSIVE", .const (r3 3 6)),
  ("select.PIPE_BUF", .const (rb 2 7 3 2)),
  ("select.devpoll.closed", .const (r3 3 4)),
  ("shlex.shlex.eof", .const (rb 2 3 3 0)),
  ("shlex.shlex.escape", .const (rb 2 3 3 0)),
  ("shlex.shlex.escapedquotes", .const (rb 2 3 3 0)),
  ("shlex.shlex.punctuation_chars", .const (r3 3 6)),
  ("shlex.shlex.whitespace_split", .const (rb 2 3 3 0)),
  ("shutil.rmtree.avoids_symlink_attacks", .const (r3 3 3)),
  ("signal.CTRL_BREAK_EVENT", .const (rb 2 7 3 2)),
  ("signal.CTRL_C_EVENT", .const (rb 2 7 3 2)),
  ("signal.SIGSTKFLT", .const (r3 3 11)),
  ("signal.SIG_BLOCK", .const (r3 3 3)),
  ("signal.SIG_SETMASK", .const (r3 3 3)),
  ("signal.SIG_UNBLOCK", .const (r3 3 3)),
  ("site.ENABLE_USER_SITE", .const (rb 2 6 3 0)),
  ("site.PREFIXES", .const (rb 2 6 3 0)),
  ("site.USER_BASE", .const (rb 2 6 3 0)),
  ("site.USER_SITE", .const (rb 2 6 3 0)),
  ("socket.AF_ALG", .const (r3 3 6)),
  ("socket.AF_CAN", .const (r3 3 3)),
  ("socket.AF_LINK", .const (r3 3 4)),
  ("socket.AF_QIPCRTR", .const (r3 3 8)),
  ("socket.AF_RDS", .const (r3 3 3)),
  ("socket.AF_TIPC", .const (rb 2 6 3 0)),
  ("socket.AF_VSOCK", .const (r3 3 7)),
  ("socket.ALG_OP_DECRYPT", .const (r3 3 6)),
  ("socket.ALG_OP_ENCRYPT", .const (r3 3 6)),
  ("socket.ALG_OP_SIGN", .const (r3 3 6)),
  ("socket.ALG_OP_VERIFY", .const (r3 3 6)),
  ("socket.ALG_SET_AEAD_ASSOCLEN", .const (r3 3 6)),
  ("socket.ALG_SET_AEAD_AUTHSIZE", .const (r3 3 6)),
  ("socket.ALG_SET_IV", .const (r3 3 6)),
  ("socket.ALG_SET_KEY", .const (r3 3 6)),
  ("socket.ALG_SET_OP", .const (r3 3 6))]

/-- rules.py:199-2856, part 21 -/
def memReqs21 : List (String × RuleVal) := [
  ("socket.ALG_SET_PUBKEY", .const (r3 3 6)),
  ("socket.CAN_BCM", .const (r3 3 4)),
  ("socket.CAN_BCM_CAN_FD_FRAME", .const (r3 3 4)),
  ("socket.CAN_BCM_RX_ANNOUNCE_RESUME", .const (r3 3 4)),
  ("socket.CAN_BCM_RX_CHANGED", .const (r3 3 4)),
  ("socket.CAN_BCM_RX_CHECK_DLC", .const (r3 3 4)),
  ("socket.CAN_BCM_RX_DELETE", .const (r3 3 4)),
  ("socket.CAN_BCM_RX_FILTER_ID", .const (r3 3 4)),
  ("socket.CAN_BCM_RX_NO_AUTOTIMER", .const (r3 3 4)),
  ("socket.CAN_BCM_RX_READ", .const (r3 3 4)),
  ("socket.CAN_BCM_RX_RTR_FRAME", .const (r3 3 4)),
  ("socket.CAN_BCM_RX_SETUP", .const (r3 3 4)),
  ("socket.CAN_BCM_RX_STATUS", .const (r3 3 4)),
  ("socket.CAN_BCM_RX_TIMEOUT", .const (r3 3 4)),
  ("socket.CAN_BCM_SETTIMER", .const (r3 3 4)),
  ("socket.CAN_BCM_STARTTIMER", .const (r3 3 4)),
  ("socket.CAN_BCM_TX_ANNOUNCE", .const (r3 3 4)),
  ("socket.CAN_BCM_TX_COUNTEVT", .const (r3 3 4)),
  ("socket.CAN_BCM_TX_CP_CAN_ID", .const (r3 3 4)),
  ("socket.CAN_BCM_TX_DELETE", .const (r3 3 4)),
  ("socket.CAN_BCM_TX_EXPIRED", .const (r3 3 4)),
  ("socket.CAN_BCM_TX_READ", .const (r3 3 4)),
  ("socket.CAN_BCM_TX_RESET_MULTI_IDX", .const (r3 3 4)),
  ("socket.CAN_BCM_TX_SEND", .const (r3 3 4)),
  ("socket.CAN_BCM_TX_SETUP", .const (r3 3 4)),
  ("socket.CAN_BCM_TX_STATUS", .const (r3 3 4)),
  ("socket.CAN_EFF_FLAG", .const (r3 3 3)),
  ("socket.CAN_EFF_MASK", .const (r3 3 3)),
  ("socket.CAN_ERR_FLAG", .const (r3 3 3)),
  ("socket.CAN_ERR_MASK", .const (r3 3 3)),
  ("socket.CAN_ISOTP", .const (r3 3 7)),
  ("socket.CAN_J1939", .const (r3 3 9)),
  ("socket.CAN_RAW", .const (r3 3 3)),
  ("socket.CAN_RAW_ERR_FILTER", .const (r3 3 3)),
  ("socket.CAN_RAW_FD_FRAMES", .const (r3 3 5)),
  ("socket.CAN_RAW_FILTER", .const (r3 3 3)),
  ("socket.CAN_RAW_JOIN_FILTERS", .const (r3 3 9)),
  ("socket.CAN_RAW_LOOPBACK", .const (r3 3 3)),
  ("socket.CAN_RAW_RECV_OWN_MSGS", .const (r3 3 3)),
  ("socket.CAN_RTR_FLAG", .const (r3 3 3)),
  ("socket.CAN_SFF_MASK", .const (r3 3 3)),
  ("socket.IOCTL_VM_SOCKETS_GET_LOCAL_CID", .const (r3 3 7)),
  ("socket.IPPROTO_MPTCP", .const (r3 3 10)),
  ("socket.IPPROTO_UDPLITE", .const (r3 3 9)),
  ("socket.IP_RECVTOS", .const (r3 3 10)),
  ("socket.LOCAL_CREDS", .const (r3 3 11)),
  ("socket.LOCAL_CREDS_PERSISTENT", .const (r3 3 11)),
  ("socket.PF_CAN", .const (r3 3 3)),
  ("socket.PF_RDS", .const (r3 3 3)),
  ("socket.RCVALL_IPLEVEL", .const (rb 2 6 3 0)),
  ("socket.RCVALL_MAX", .const (rb 2 6 3 0)),
  ("socket.RCVALL_OFF", .const (rb 2 6 3 0)),
  ("socket.RCVALL_ON", .const (rb 2 6 3 0)),
  ("socket.RCVALL_SOCKETLEVELONLY", .const (rb 2 6 3 0)),
  ("socket.RDS_CANCEL_SENT_TO", .const (r3 3 3)),
  ("socket.RDS_CMSG_RDMA_ARGS", .const (r3 3 3)),
  ("socket.RDS_CMSG_RDMA_DEST", .const (r3 3 3)),
  ("socket.RDS_CMSG_RDMA_MAP", .const (r3 3 3)),
  ("socket.RDS_CMSG_RDMA_STATUS", .const (r3 3 3)),
  ("socket.RDS_CMSG_RDMA_UPDATE", .const (r3 3 3)),
  ("socket.RDS_CONG_MONITOR", .const (r3 3 3)),
  ("socket.RDS_FREE_MR", .const (r3 3 3)),
  ("socket.RDS_GET_MR", .const (r3 3 3)),
  ("socket.RDS_GET_MR_FOR_DEST", .const (r3 3 3)),
  ("socket.RDS_RDMA_DONTWAIT", .const (r3 3 3)),
  ("socket.RDS_RDMA_FENCE", .const (r3 3 3)),
  ("socket.RDS_RDMA_INVALIDATE", .const (r3 3 3)),
  ("socket.RDS_RDMA_NOTIFY_ME", .const (r3 3 3)),
  ("socket.RDS_RDMA_READWRITE", .const (r3 3 3)),
  ("socket.RDS_RDMA_SILENT", .const (r3 3 3)),
  ("socket.RDS_RDMA_USE_ONCE", .const (r3 3 3)),
  ("socket.RDS_RECVERR", .const (r3 3 3)),
  ("socket.SCM_CREDS2", .const (r3 3 11)),
  ("socket.SIO_KEEPALIVE_VALS", .const (rb 2 6 3 0)),
  ("socket.SIO_LOOPBACK_FAST_PATH", .const (r3 3 6)),
  ("socket.SIO_RCVALL", .const (rb 2 6 3 0)),
  ("socket.SOCK_CLOEXEC", .const (r3 3 2)),
  ("socket.SOCK_NONBLOCK", .const (r3 3 2)),
  ("socket.SOL_ALG", .const (r3 3 6)),
  ("socket.SOL_CAN_BASE", .const (r3 3 3)),
  ("socket.SOL_CAN_RAW", .const (r3 3 3)),
  ("socket.SOL_RDS", .const (r3 3 3)),
  ("socket.SOL_TIPC", .const (rb 2 6 3 0)),
  ("socket.SO_DOMAIN", .const (r3 3 6)),
  ("socket.SO_INCOMING_CPU", .const (r3 3 11)),
  ("socket.SO_PASSSEC", .const (r3 3 6)),
  ("socket.SO_PEERSEC", .const (r3 3 6)),
  ("socket.SO_PROTOCOL", .const (r3 3 6)),
  ("socket.SO_VM_SOCKETS_BUFFER_MAX_SIZE", .const (r3 3 7)),
  ("socket.SO_VM_SOCKETS_BUFFER_MIN_SIZE", .const (r3 3 7)),
  ("socket.SO_VM_SOCKETS_BUFFER_SIZE", .const (r3 3 7)),
  ("socket.TCP_CONGESTION", .const (r3 3 6)),
  ("socket.TCP_CONNECTION_INFO", .const (r3 3 11)),
  ("socket.TCP_KEEPALIVE", .const (r3 3 10)),
  ("socket.TCP_NOTSENT_LOWAT", .const (r3 3 7)),
  ("socket.TCP_USER_TIMEOUT", .const (r3 3 6)),
  ("socket.TIPC_ADDR_ID", .const (rb 2 6 3 0)),
  ("socket.TIPC_ADDR_NAME", .const (rb 2 6 3 0)),
  ("socket.TIPC_ADDR_NAMESEQ", .const (rb 2 6 3 0)),
  ("socket.TIPC_CFG_SRV", .const (rb 2 6 3 0))]

/-- rules.py:199-2856, part 22 -/
def memReqs22 : List (String × RuleVal) := [
  ("socket.TIPC_CLUSTER_SCOPE", .const (rb 2 6 3 0)),
  ("socket.TIPC_CONN_TIMEOUT", .const (rb 2 6 3 0)),
  ("socket.TIPC_CRITICAL_IMPORTANCE", .const (rb 2 6 3 0)),
  ("socket.TIPC_DEST_DROPPABLE", .const (rb 2 6 3 0)),
  ("socket.TIPC_HIGH_IMPORTANCE", .const (rb 2 6 3 0)),
  ("socket.TIPC_IMPORTANCE", .const (rb 2 6 3 0)),
  ("socket.TIPC_LOW_IMPORTANCE", .const (rb 2 6 3 0)),
  ("socket.TIPC_MEDIUM_IMPORTANCE", .const (rb 2 6 3 0)),
  ("socket.TIPC_NODE_SCOPE", .const (rb 2 6 3 0)),
  ("socket.TIPC_PUBLISHED", .const (rb 2 6 3 0)),
  ("socket.TIPC_SRC_DROPPABLE", .const (rb 2 6 3 0)),
  ("socket.TIPC_SUBSCR_TIMEOUT", .const (rb 2 6 3 0)),
  ("socket.TIPC_SUB_CANCEL", .const (rb 2 6 3 0)),
  ("socket.TIPC_SUB_PORTS", .const (rb 2 6 3 0)),
  ("socket.TIPC_SUB_SERVICE", .const (rb 2 6 3 0)),
  ("socket.TIPC_TOP_SRV", .const (rb 2 6 3 0)),
  ("socket.TIPC_WAIT_FOREVER", .const (rb 2 6 3 0)),
  ("socket.TIPC_WITHDRAWN", .const (rb 2 6 3 0)),
  ("socket.TIPC_ZONE_SCOPE", .const (rb 2 6 3 0)),
  ("socket.VMADDR_CID_ANY", .const (r3 3 7)),
  ("socket.VMADDR_CID_HOST", .const (r3 3 7)),
  ("socket.VMADDR_PORT_ANY", .const (r3 3 7)),
  ("socket.has_ipv6", .const (rb 2 3 3 0)),
  ("socket.socket.family", .const (rb 2 5 3 0)),
  ("socket.socket.proto", .const (rb 2 5 3 0)),
  ("socket.socket.type", .const (rb 2 5 3 0)),
  ("socketserver.ForkingMixIn.block_on_close", .const (r3 3 7)),
  ("socketserver.ThreadingMixIn.block_on_close", .const (r3 3 7)),
  ("sqlite3.Connection.autocommit", .const (r3 3 12)),
  ("sqlite3.Error.sqlite_errorcode", .const (r3 3 11)),
  ("sqlite3.Error.sqlite_errorname", .const (r3 3 11)),
  ("sqlite3.SQLITE_DBCONFIG_DEFENSIVE", .const (r3 3 12)),
  ("sqlite3.SQLITE_DBCONFIG_DQS_DDL", .const (r3 3 12)),
  ("sqlite3.SQLITE_DBCONFIG_DQS_DML", .const (r3 3 12)),
  ("sqlite3.SQLITE_DBCONFIG_ENABLE_FKEY", .const (r3 3 12)),
  ("sqlite3.SQLITE_DBCONFIG_ENABLE_FTS3_TOKENIZER", .const (r3 3 12)),
  ("sqlite3.SQLITE_DBCONFIG_ENABLE_LOAD_EXTENSION", .const (r3 3 12)),
  ("sqlite3.SQLITE_DBCONFIG_ENABLE_QPSG", .const (r3 3 12)),
  ("sqlite3.SQLITE_DBCONFIG_ENABLE_TRIGGER", .const (r3 3 12)),
  ("sqlite3.SQLITE_DBCONFIG_ENABLE_VIEW", .const (r3 3 12)),
  ("sqlite3.SQLITE_DBCONFIG_LEGACY_ALTER_TABLE", .const (r3 3 12)),
  ("sqlite3.SQLITE_DBCONFIG_LEGACY_FILE_FORMAT", .const (r3 3 12)),
  ("sqlite3.SQLITE_DBCONFIG_NO_CKPT_ON_CLOSE", .const (r3 3 12)),
  ("sqlite3.SQLITE_DBCONFIG_RESET_DATABASE", .const (r3 3 12)),
  ("sqlite3.SQLITE_DBCONFIG_TRIGGER_EQP", .const (r3 3 12)),
  ("sqlite3.SQLITE_DBCONFIG_TRUSTED_SCHEMA", .const (r3 3 12)),
  ("sqlite3.SQLITE_DBCONFIG_WRITABLE_SCHEMA", .const (r3 3 12)),
  ("ssl.ALERT_DESCRIPTION_ACCESS_DENIED", .const (rb 2 7 3 4)),
  ("ssl.ALERT_DESCRIPTION_BAD_CERTIFICATE", .const (rb 2 7 3 4)),
  ("ssl.ALERT_DESCRIPTION_BAD_CERTIFICATE_HASH_VALUE", .const (rb 2 7 3 4)),
  ("ssl.ALERT_DESCRIPTION_BAD_CERTIFICATE_STATUS_RESPONSE", .const (rb 2 7 3 4)),
  ("ssl.ALERT_DESCRIPTION_BAD_RECORD_MAC", .const (rb 2 7 3 4)),
  ("ssl.ALERT_DESCRIPTION_CERTIFICATE_EXPIRED", .const (rb 2 7 3 4)),
  ("ssl.ALERT_DESCRIPTION_CERTIFICATE_REVOKED", .const (rb 2 7 3 4)),
  ("ssl.ALERT_DESCRIPTION_CERTIFICATE_UNKNOWN", .const (rb 2 7 3 4)),
  ("ssl.ALERT_DESCRIPTION_CERTIFICATE_UNOBTAINABLE", .const (rb 2 7 3 4)),
  ("ssl.ALERT_DESCRIPTION_CLOSE_NOTIFY", .const (rb 2 7 3 4)),
  ("ssl.ALERT_DESCRIPTION_DECODE_ERROR", .const (rb 2 7 3 4)),
  ("ssl.ALERT_DESCRIPTION_DECOMPRESSION_FAILURE", .const (rb 2 7 3 4)),
  ("ssl.ALERT_DESCRIPTION_DECRYPT_ERROR", .const (rb 2 7 3 4)),
  ("ssl.ALERT_DESCRIPTION_HANDSHAKE_FAILURE", .const (rb 2 7 3 4)),
  ("ssl.ALERT_DESCRIPTION_ILLEGAL_PARAMETER", .const (rb 2 7 3 4)),
  ("ssl.ALERT_DESCRIPTION_INSUFFICIENT_SECURITY", .const (rb 2 7 3 4)),
  ("ssl.ALERT_DESCRIPTION_INTERNAL_ERROR", .const (rb 2 7 3 4)),
  ("ssl.ALERT_DESCRIPTION_NO_RENEGOTIATION", .const (rb 2 7 3 4)),
  ("ssl.ALERT_DESCRIPTION_PROTOCOL_VERSION", .const (rb 2 7 3 4)),
  ("ssl.ALERT_DESCRIPTION_RECORD_OVERFLOW", .const (rb 2 7 3 4)),
  ("ssl.ALERT_DESCRIPTION_UNEXPECTED_MESSAGE", .const (rb 2 7 3 4)),
  ("ssl.ALERT_DESCRIPTION_UNKNOWN_CA", .const (rb 2 7 3 4)),
  ("ssl.ALERT_DESCRIPTION_UNKNOWN_PSK_IDENTITY", .const (rb 2 7 3 4)),
  ("ssl.ALERT_DESCRIPTION_UNRECOGNIZED_NAME", .const (rb 2 7 3 4)),
  ("ssl.ALERT_DESCRIPTION_UNSUPPORTED_CERTIFICATE", .const (rb 2 7 3 4)),
  ("ssl.ALERT_DESCRIPTION_UNSUPPORTED_EXTENSION", .const (rb 2 7 3 4)),
  ("ssl.ALERT_DESCRIPTION_USER_CANCELLED", .const (rb 2 7 3 4)),
  ("ssl.CHANNEL_BINDING_TYPES", .const (rb 2 7 3 3)),
  ("ssl.HAS_ALPN", .const (rb 2 7 3 5)),
  ("ssl.HAS_ECDH", .const (rb 2 7 3 3)),
  ("ssl.HAS_NEVER_CHECK_COMMON_NAME", .const (r3 3 7)),
  ("ssl.HAS_NPN", .const (rb 2 7 3 3)),
  ("ssl.HAS_SNI", .const (rb 2 7 3 2)),
  ("ssl.HAS_SSLv2", .const (r3 3 7)),
  ("ssl.HAS_SSLv3", .const (r3 3 7)),
  ("ssl.HAS_TLSv1", .const (r3 3 7)),
  ("ssl.HAS_TLSv1_1", .const (r3 3 7)),
  ("ssl.HAS_TLSv1_2", .const (r3 3 7)),
  ("ssl.HAS_TLSv1_3", .const (rb 2 7 3 7)),
  ("ssl.OPENSSL_VERSION", .const (rb 2 7 3 2)),
  ("ssl.OPENSSL_VERSION_INFO", .const (rb 2 7 3 2)),
  ("ssl.OPENSSL_VERSION_NUMBER", .const (rb 2 7 3 2)),
  ("ssl.OP_ALL", .const (rb 2 7 3 2)),
  ("ssl.OP_CIPHER_SERVER_PREFERENCE", .const (rb 2 7 3 3)),
  ("ssl.OP_ENABLE_MIDDLEBOX_COMPAT", .const (rb 2 7 3 8)),
  ("ssl.OP_NO_COMPRESSION", .const (rb 2 7 3 3)),
  ("ssl.OP_NO_RENEGOTIATION", .const (r3 3 7)),
  ("ssl.OP_NO_SSLv2", .const (rb 2 7 3 2)),
  ("ssl.OP_NO_SSLv3", .const (rb 2 7 3 2)),
  ("ssl.OP_NO_TICKET", .const (r3 3 6)),
  ("ssl.OP_IGNORE_UNEXPECTED_EOF", .const (r3 3 10)),
  ("ssl.OP_NO_TLSv1", .const (rb 2 7 3 2)),
  ("ssl.OP_NO_TLSv1_1", .const (rb 2 7 3 4))]

/-- rules.py:199-2856, part 23 -/
def memReqs23 : List (String × RuleVal) := [
  ("ssl.OP_NO_TLSv1_2", .const (rb 2 7 3 4)),
  ("ssl.OP_NO_TLSv1_3", .const (rb 2 7 3 7)),
  ("ssl.OP_SINGLE_DH_USE", .const (rb 2 7 3 3)),
  ("ssl.OP_SINGLE_ECDH_USE", .const (rb 2 7 3 3)),
  ("ssl.PROTOCOL_TLS", .const (rb 2 7 3 6)),
  ("ssl.PROTOCOL_TLS_CLIENT", .const (r3 3 6)),
  ("ssl.PROTOCOL_TLS_SERVER", .const (r3 3 6)),
  ("ssl.PROTOCOL_TLSv1_1", .const (rb 2 7 3 4)),
  ("ssl.PROTOCOL_TLSv1_2", .const (rb 2 7 3 4)),
  ("ssl.Purpose.CLIENT_AUTH", .const (rb 2 7 3 4)),
  ("ssl.Purpose.SERVER_AUTH", .const (rb 2 7 3 4)),
  ("ssl.SSLContext.check_hostname", .const (r3 3 4)),
  ("ssl.SSLContext.security_level", .const (r3 3 10)),
  ("ssl.SSLContext.hostname_checks_common_name", .const (r3 3 7)),
  ("ssl.SSLContext.keylog_filename", .const (r3 3 8)),
  ("ssl.SSLContext.maximum_version", .const (r3 3 7)),
  ("ssl.SSLContext.minimum_version", .const (r3 3 7)),
  ("ssl.SSLContext.num_tickets", .const (r3 3 8)),
  ("ssl.SSLContext.post_handshake_auth", .const (r3 3 8)),
  ("ssl.SSLContext.sni_callback", .const (r3 3 7)),
  ("ssl.SSLContext.sslobject_class", .const (r3 3 7)),
  ("ssl.SSLContext.sslsocket_class", .const (r3 3 7)),
  ("ssl.SSLContext.verify_flags", .const (r3 3 4)),
  ("ssl.SSLError.library", .const (rb 2 7 3 3)),
  ("ssl.SSLError.reason", .const (rb 2 7 3 3)),
  ("ssl.SSLSocket.context", .const (rb 2 7 3 2)),
  ("ssl.SSLSocket.server_hostname", .const (r3 3 2)),
  ("ssl.SSLSocket.server_side", .const (r3 3 2)),
  ("ssl.SSLSocket.session", .const (r3 3 6)),
  ("ssl.SSLSocket.session_reused", .const (r3 3 6)),
  ("ssl.VERIFY_ALLOW_PROXY_CERTS", .const (r3 3 10)),
  ("ssl.VERIFY_CRL_CHECK_CHAIN", .const (rb 2 7 3 4)),
  ("ssl.VERIFY_CRL_CHECK_LEAF", .const (rb 2 7 3 4)),
  ("ssl.VERIFY_DEFAULT", .const (rb 2 7 3 4)),
  ("ssl.VERIFY_X509_PARTIAL_CHAIN", .const (r3 3 10)),
  ("ssl.VERIFY_X509_STRICT", .const (rb 2 7 3 4)),
  ("ssl.VERIFY_X509_TRUSTED_FIRST", .const (rb 2 7 3 4)),
  ("stat.FILE_ATTRIBUTE_ARCHIVE", .const (r3 3 5)),
  ("stat.FILE_ATTRIBUTE_COMPRESSED", .const (r3 3 5)),
  ("stat.FILE_ATTRIBUTE_DEVICE", .const (r3 3 5)),
  ("stat.FILE_ATTRIBUTE_DIRECTORY", .const (r3 3 5)),
  ("stat.FILE_ATTRIBUTE_ENCRYPTED", .const (r3 3 5)),
  ("stat.FILE_ATTRIBUTE_HIDDEN", .const (r3 3 5)),
  ("stat.FILE_ATTRIBUTE_INTEGRITY_STREAM", .const (r3 3 5)),
  ("stat.FILE_ATTRIBUTE_NORMAL", .const (r3 3 5)),
  ("stat.FILE_ATTRIBUTE_NOT_CONTENT_INDEXED", .const (r3 3 5)),
  ("stat.FILE_ATTRIBUTE_NO_SCRUB_DATA", .const (r3 3 5)),
  ("stat.FILE_ATTRIBUTE_OFFLINE", .const (r3 3 5)),
  ("stat.FILE_ATTRIBUTE_READONLY", .const (r3 3 5)),
  ("stat.FILE_ATTRIBUTE_REPARSE_POINT", .const (r3 3 5)),
  ("stat.FILE_ATTRIBUTE_SPARSE_FILE", .const (r3 3 5)),
  ("stat.FILE_ATTRIBUTE_SYSTEM", .const (r3 3 5)),
  ("stat.FILE_ATTRIBUTE_TEMPORARY", .const (r3 3 5)),
  ("stat.FILE_ATTRIBUTE_VIRTUAL", .const (r3 3 5)),
  ("stat.IO_REPARSE_TAG_APPEXECLINK", .const (r3 3 8)),
  ("stat.IO_REPARSE_TAG_MOUNT_POINT", .const (r3 3 8)),
  ("stat.IO_REPARSE_TAG_SYMLINK", .const (r3 3 8)),
  ("stat.S_IFDOOR", .const (r3 3 4)),
  ("stat.S_IFPORT", .const (r3 3 4)),
  ("stat.S_IFWHT", .const (r3 3 4)),
  ("staticmethod.__wrapped__", .const (r3 3 10)),
  ("string.Template.braceidpattern", .const (r3 3 7)),
  ("string.Template.flags", .const (r3 3 2)),
  ("string.letters", .const (r2 2 0)),
  ("string.lowercase", .const (r2 2 0)),
  ("string.uppercase", .const (r2 2 0)),
  ("subprocess.ABOVE_NORMAL_PRIORITY_CLASS", .const (r3 3 7)),
  ("subprocess.BELOW_NORMAL_PRIORITY_CLASS", .const (r3 3 7)),
  ("subprocess.CREATE_BREAKAWAY_FROM_JOB", .const (r3 3 7)),
  ("subprocess.CREATE_DEFAULT_ERROR_MODE", .const (r3 3 7)),
  ("subprocess.CREATE_NO_WINDOW", .const (r3 3 7)),
  ("subprocess.CalledProcessError.stderr", .const (r3 3 5)),
  ("subprocess.CalledProcessError.stdout", .const (r3 3 5)),
  ("subprocess.DETACHED_PROCESS", .const (r3 3 7)),
  ("subprocess.DEVNULL", .const (r3 3 3)),
  ("subprocess.HIGH_PRIORITY_CLASS", .const (r3 3 7)),
  ("subprocess.IDLE_PRIORITY_CLASS", .const (r3 3 7)),
  ("subprocess.NORMAL_PRIORITY_CLASS", .const (r3 3 7)),
  ("subprocess.Popen.args", .const (r3 3 3)),
  ("subprocess.REALTIME_PRIORITY_CLASS", .const (r3 3 7)),
  ("subprocess.STARTUPINFO.lpAttributeList", .const (r3 3 7)),
  ("subprocess.TimeoutExpired.stderr", .const (r3 3 5)),
  ("subprocess.TimeoutExpired.stdout", .const (r3 3 5)),
  ("sys.__breakpointhook__", .const (r3 3 7)),
  ("sys.__interactivehook__", .const (r3 3 4)),
  ("sys.__unraisablehook__", .const (r3 3 8)),
  ("sys._emscripten_info", .const (r3 3 11)),
  ("sys._xoptions", .const (r3 3 2)),
  ("sys.abiflags", .const (r3 3 2)),
  ("sys.activate_stack_trampoline", .const (r3 3 12)),
  ("sys.api_version", .const (rb 2 3 3 0)),
  ("sys.base_exec_prefix", .const (r3 3 3)),
  ("sys.base_prefix", .const (r3 3 3)),
  ("sys.deactivate_stack_trampoline", .const (r3 3 12)),
  ("sys.dont_write_bytecode", .const (rb 2 6 3 0)),
  ("sys.flags", .const (rb 2 6 3 0)),
  ("sys.flags.dev_mode", .const (r3 3 7)),
  ("sys.flags.hash_randomization", .const (rb 2 7 3 2)),
  ("sys.flags.isolated", .const (r3 3 4)),
  ("sys.flags.quiet", .const (r3 3 2))]

/-- rules.py:199-2856, part 24 -/
def memReqs24 : List (String × RuleVal) := [
  ("sys.flags.utf8_mode", .const (r3 3 7)),
  ("sys.float_info", .const (rb 2 6 3 0)),
  ("sys.float_repr_style", .const (rb 2 7 3 1)),
  ("sys.getunicodeinternedsize", .const (r3 3 12)),
  ("sys.getwindowsversion.build", .const (rb 2 7 3 0)),
  ("sys.getwindowsversion.major", .const (rb 2 7 3 0)),
  ("sys.getwindowsversion.minor", .const (rb 2 7 3 0)),
  ("sys.getwindowsversion.platform", .const (rb 2 7 3 0)),
  ("sys.getwindowsversion.product_type", .const (rb 2 7 3 0)),
  ("sys.getwindowsversion.service_pack", .const (rb 2 7 3 0)),
  ("sys.getwindowsversion.service_pack_major", .const (rb 2 7 3 0)),
  ("sys.getwindowsversion.service_pack_minor", .const (rb 2 7 3 0)),
  ("sys.getwindowsversion.suite_mask", .const (rb 2 7 3 0)),
  ("sys.hash_info", .const (r3 3 2)),
  ("sys.hash_info.algorithm", .const (r3 3 4)),
  ("sys.hash_info.hash_bits", .const (r3 3 4)),
  ("sys.hash_info.seed_bits", .const (r3 3 4)),
  ("sys.implementation", .const (r3 3 3)),
  ("sys.int_info", .const (r3 3 1)),
  ("sys.is_stack_trampoline_active", .const (r3 3 12)),
  ("sys.last_exc", .const (r3 3 12)),
  ("sys.long_info", .const (r2 2 7)),
  ("sys.orig_argv", .const (r3 3 10)),
  ("sys.platlibdir", .const (r3 3 9)),
  ("sys.py3kwarning", .const (r2 2 6)),
  ("sys.pycache_prefix", .const (r3 3 8)),
  ("sys.stdlib_module_names", .const (r3 3 10)),
  ("sys.subversion", .const (rb 2 5 3 0)),
  ("sys.thread_info", .const (r3 3 3)),
  ("sys.version_info", .const (rb 2 0 3 0)),
  ("sys.version_info.major", .const (rb 2 7 3 0)),
  ("sys.version_info.micro", .const (rb 2 7 3 0)),
  ("sys.version_info.minor", .const (rb 2 7 3 0)),
  ("sys.version_info.releaselevel", .const (rb 2 7 3 0)),
  ("tarfile.DEFAULT_FORMAT", .const (rb 2 6 3 0)),
  ("tarfile.GNU_FORMAT", .const (rb 2 6 3 0)),
  ("tarfile.PAX_FORMAT", .const (rb 2 6 3 0)),
  ("tarfile.TarFile.extraction_filter", .const (r3 3 12)),
  ("tarfile.TarFile.pax_headers", .const (rb 2 6 3 0)),
  ("tarfile.TarInfo.pax_headers", .const (rb 2 6 3 0)),
  ("tarfile.USTAR_FORMAT", .const (rb 2 6 3 0)),
  ("textwrap.TextWrapper.break_on_hyphens", .const (rb 2 6 3 0)),
  ("textwrap.TextWrapper.drop_whitespace", .const (rb 2 6 3 0)),
  ("textwrap.TextWrapper.max_lines", .const (r3 3 4)),
  ("textwrap.TextWrapper.placeholder", .const (r3 3 4)),
  ("textwrap.TextWrapper.tabsize", .const (r3 3 3)),
  ("threading.TIMEOUT_MAX", .const (r3 3 2)),
  ("threading.Thread.daemon", .const (rb 2 6 3 0)),
  ("threading.Thread.ident", .const (rb 2 6 3 0)),
  ("threading.Thread.name", .const (rb 2 6 3 0)),
  ("threading.Thread.native_id", .const (r3 3 8)),
  ("threading.__excepthook__", .const (r3 3 10)),
  ("time.CLOCK_BOOTTIME", .const (r3 3 7)),
  ("time.CLOCK_HIGHRES", .const (r3 3 3)),
  ("time.CLOCK_MONOTONIC", .const (r3 3 3)),
  ("time.CLOCK_MONOTONIC_RAW", .const (r3 3 3)),
  ("time.CLOCK_PROCESS_CPUTIME_ID", .const (r3 3 3)),
  ("time.CLOCK_PROF", .const (r3 3 7)),
  ("time.CLOCK_REALTIME", .const (r3 3 3)),
  ("time.CLOCK_TAI", .const (r3 3 9)),
  ("time.CLOCK_THREAD_CPUTIME_ID", .const (r3 3 3)),
  ("time.CLOCK_UPTIME", .const (r3 3 7)),
  ("time.CLOCK_UPTIME_RAW", .const (r3 3 8)),
  ("time.struct_time.tm_gmtoff", .const (r3 3 3)),
  ("time.struct_time.tm_zone", .const (r3 3 3)),
  ("token.ASYNC", .const (r3 3 5)),
  ("token.AWAIT", .const (r3 3 5)),
  ("token.COLONEQUAL", .const (r3 3 8)),
  ("token.COMMENT", .const (r3 3 7)),
  ("token.ENCODING", .const (r3 3 7)),
  ("token.NL", .const (r3 3 7)),
  ("token.TYPE_COMMENT", .const (r3 3 8)),
  ("token.TYPE_IGNORE", .const (r3 3 8)),
  ("traceback.TracebackException.__notes__", .const (r3 3 11)),
  ("tracemalloc.Filter.domain", .const (r3 3 6)),
  ("tracemalloc.Trace.domain", .const (r3 3 6)),
  ("tracemalloc.Traceback.total_nframe", .const (r3 3 9)),
  ("types.AsyncGeneratorType", .const (r3 3 6)),
  ("types.BooleanType", .const (r2 2 3)),
  ("types.CellType", .const (r3 3 8)),
  ("types.ClassMethodDescriptorType", .const (r3 3 7)),
  ("types.CoroutineType", .const (r3 3 5)),
  ("types.EllipsisType", .const (rb 2 0 3 10)),
  ("types.GeneratorType", .const (rb 2 2 3 0)),
  ("types.GetSetDescriptorType", .const (rb 2 5 3 0)),
  ("types.MemberDescriptorType", .const (rb 2 5 3 0)),
  ("types.MethodDescriptorType", .const (r3 3 7)),
  ("types.MethodWrapperType", .const (r3 3 7)),
  ("types.ModuleType.__spec__", .const (r3 3 4)),
  ("types.NoneType", .const (rb 2 0 3 10)),
  ("types.NotImplementedType", .const (rb 2 5 3 10)),
  ("types.StringTypes", .const (r2 2 2)),
  ("types.UnionType", .const (r3 3 10)),
  ("types.WrapperDescriptorType", .const (r3 3 7)),
  ("typing.Annotated", .const (r3 3 9)),
  ("typing.Concatenate", .const (r3 3 10)),
  ("typing.NoReturn", .ifNotBp "typing" (r3 3 5) (rb 2 7 3 3)),
  ("typing.Final", .ifNotBp "typing" (r3 3 8) (rb 2 7 3 8)),
  ("typing.Literal", .ifNotBp "typing" (r3 3 8) (rb 2 7 3 8)),
  ("typing.ParamSpecArgs", .const (r3 3 10))]

/-- rules.py:199-2856, part 25 -/
def memReqs25 : List (String × RuleVal) := [
  ("typing.ParamSpecKwargs", .const (r3 3 10)),
  ("typing.TypeAlias", .const (r3 3 10)),
  ("typing.TypeGuard", .const (r3 3 10)),
  ("typing.LiteralString", .const (r3 3 11)),
  ("typing.Never", .const (r3 3 11)),
  ("typing.Self", .const (r3 3 11)),
  ("typing.TypeVarTuple", .const (r3 3 11)),
  ("typing.Unpack", .const (r3 3 11)),
  ("typing.Required", .const (r3 3 11)),
  ("typing.NotRequired", .const (r3 3 11)),
  ("unicodedata.ucd_3_2_0", .const (rb 2 5 3 0)),
  ("unicodedata.unidata_version", .const (rb 2 3 3 0)),
  ("unittest.TestCase.longMessage", .const (rb 2 7 3 1)),
  ("unittest.TestCase.maxDiff", .const (rb 2 7 3 2)),
  ("unittest.TestLoader.errors", .const (r3 3 5)),
  ("unittest.TestLoader.testNamePatterns", .const (r3 3 7)),
  ("unittest.TestResult.buffer", .const (rb 2 7 3 2)),
  ("unittest.TestResult.failfast", .const (rb 2 7 3 2)),
  ("unittest.TestResult.skipped", .const (rb 2 7 3 1)),
  ("unittest.TestResult.tb_locals", .const (r3 3 5)),
  ("unittest.mock.Mock.call_args.args", .bpv "mock" (r3 3 8)),
  ("unittest.mock.Mock.call_args.kwargs", .bpv "mock" (r3 3 8)),
  ("urllib.error.HTTPError.headers", .const (r3 3 4)),
  ("urllib.parse._UNSAFE_URL_BYTES_TO_REMOVE", .const (r3 3 10)),
  ("urllib.request.Request.method", .const (r3 3 3)),
  ("urllib.response.addinfourl.status", .const (r3 3 9)),
  ("urlparse.urlparse.fragment", .const (r2 2 5)),
  ("urlparse.urlparse.hostname", .const (r2 2 5)),
  ("urlparse.urlparse.netloc", .const (r2 2 5)),
  ("urlparse.urlparse.params", .const (r2 2 5)),
  ("urlparse.urlparse.password", .const (r2 2 5)),
  ("urlparse.urlparse.path", .const (r2 2 5)),
  ("urlparse.urlparse.port", .const (r2 2 5)),
  ("urlparse.urlparse.query", .const (r2 2 5)),
  ("urlparse.urlparse.scheme", .const (r2 2 5)),
  ("urlparse.urlparse.username", .const (r2 2 5)),
  ("urlparse.urlsplit.fragment", .const (r2 2 5)),
  ("urlparse.urlsplit.hostname", .const (r2 2 5)),
  ("urlparse.urlsplit.netloc", .const (r2 2 5)),
  ("urlparse.urlsplit.password", .const (r2 2 5)),
  ("urlparse.urlsplit.path", .const (r2 2 5)),
  ("urlparse.urlsplit.port", .const (r2 2 5)),
  ("urlparse.urlsplit.query", .const (r2 2 5)),
  ("urlparse.urlsplit.scheme", .const (r2 2 5)),
  ("urlparse.urlsplit.username", .const (r2 2 5)),
  ("uuid.UUID.is_safe", .const (r3 3 7)),
  ("weakref.ref.__callback__", .const (r3 3 4)),
  ("winreg.REG_QWORD", .const (r3 3 6)),
  ("winreg.REG_QWORD_LITTLE_ENDIAN", .const (r3 3 6)),
  ("xml.dom.DOMSTRING_SIZE_ERR", .const (rb 2 1 3 0)),
  ("xml.dom.EMPTY_NAMESPACE", .const (rb 2 2 3 0)),
  ("xml.dom.HIERARCHY_REQUEST_ERR", .const (rb 2 1 3 0)),
  ("xml.dom.INDEX_SIZE_ERR", .const (rb 2 1 3 0)),
  ("xml.dom.INUSE_ATTRIBUTE_ERR", .const (rb 2 1 3 0)),
  ("xml.dom.INVALID_ACCESS_ERR", .const (rb 2 1 3 0)),
  ("xml.dom.INVALID_CHARACTER_ERR", .const (rb 2 1 3 0)),
  ("xml.dom.INVALID_MODIFICATION_ERR", .const (rb 2 1 3 0)),
  ("xml.dom.INVALID_STATE_ERR", .const (rb 2 1 3 0)),
  ("xml.dom.NAMESPACE_ERR", .const (rb 2 1 3 0)),
  ("xml.dom.NOT_FOUND_ERR", .const (rb 2 1 3 0)),
  ("xml.dom.NOT_SUPPORTED_ERR", .const (rb 2 1 3 0)),
  ("xml.dom.NO_DATA_ALLOWED_ERR", .const (rb 2 1 3 0)),
  ("xml.dom.NO_MODIFICATION_ALLOWED_ERR", .const (rb 2 1 3 0)),
  ("xml.dom.SYNTAX_ERR", .const (rb 2 1 3 0)),
  ("xml.dom.WRONG_DOCUMENT_ERR", .const (rb 2 1 3 0)),
  ("xml.dom.XHTML_NAMESPACE", .const (rb 2 2 3 0)),
  ("xml.dom.XMLNS_NAMESPACE", .const (rb 2 2 3 0)),
  ("xml.dom.XML_NAMESPACE", .const (rb 2 2 3 0)),
  ("xml.parsers.expat.ExpatError.code", .const (rb 2 1 3 0)),
  ("xml.parsers.expat.ExpatError.lineno", .const (rb 2 1 3 0)),
  ("xml.parsers.expat.ExpatError.offset", .const (rb 2 1 3 0)),
  ("xml.parsers.expat.XMLParserType.CurrentByteIndex", .const (rb 2 4 3 0)),
  ("xml.parsers.expat.XMLParserType.CurrentColumnNumber", .const (rb 2 4 3 0)),
  ("xml.parsers.expat.XMLParserType.CurrentLineNumber", .const (rb 2 4 3 0)),
  ("xml.parsers.expat.XMLParserType.buffer_size", .const (rb 2 3 3 0)),
  ("xml.parsers.expat.XMLParserType.buffer_text", .const (rb 2 3 3 0)),
  ("xml.parsers.expat.XMLParserType.buffer_used", .const (rb 2 3 3 0)),
  ("xml.parsers.expat.XMLParserType.ordered_attributes", .const (rb 2 1 3 0)),
  ("xml.parsers.expat.XMLParserType.returns_unicode", .const (r2 2 0)),
  ("xml.parsers.expat.XMLParserType.specified_attributes", .const (rb 2 1 3 0)),
  ("xml.parsers.expat.errors.codes", .const (r3 3 2)),
  ("xml.parsers.expat.errors.messages", .const (r3 3 2)),
  ("xmlrpc.server.SimpleXMLRPCRequestHandler.rpc_paths", .const (r3 3 0)),
  ("zipfile.Path.stem", .const (r3 3 11)),
  ("zipfile.Path.suffix", .const (r3 3 11)),
  ("zipfile.Path.suffixes", .const (r3 3 11)),
  ("zipfile.ZIP_BZIP2", .const (r3 3 3)),
  ("zipfile.ZIP_LZMA", .const (r3 3 3)),
  ("zlib.Decompress.eof", .const (r3 3 3)),
  ("zlib.ZLIB_RUNTIME_VERSION", .const (r3 3 3)),
  ("abc.abstractclassmethod", .const (r3 3 2)),
  ("abc.abstractstaticmethod", .const (r3 3 2)),
  ("contextlib.asynccontextmanager", .const (r3 3 7)),
  ("enum.global_enum", .const (r3 3 11)),
  ("enum.member", .const (r3 3 11)),
  ("enum.nonmember", .const (r3 3 11)),
  ("enum.property", .const (r3 3 11)),
  ("enum.verify", .const (r3 3 11)),
  ("functools.cache", .const (r3 3 9)),
  ("functools.cached_property", .const (r3 3 8))]

/-- rules.py:199-2856, part 26 -/
def memReqs26 : List (String × RuleVal) := [
  ("functools.lru_cache", .const (r3 3 2)),
  ("functools.partial_method", .const (r3 3 4)),
  ("functools.singledispatch", .const (r3 3 4)),
  ("functools.singledispatchmethod", .const (r3 3 8)),
  ("functools.total_ordering", .const (rb 2 7 3 2)),
  ("reprlib.recursive_repr", .const (r3 3 2)),
  ("typing.dataclass_transform", .const (r3 3 11)),
  ("typing.final", .ifNotBp "typing" (r3 3 8) (rb 2 7 3 8)),
  ("typing.override", .const (r3 3 12)),
  ("typing.runtime_checkable", .ifNotBp "typing" (r3 3 8) (rb 2 7 3 8)),
  ("unittest.expectedFailure", .const (rb 2 7 3 1)),
  ("unittest.skip", .const (rb 2 7 3 1)),
  ("unittest.skipIf", .const (rb 2 7 3 1)),
  ("unittest.skipUnless", .const (rb 2 7 3 1))]

/-- rules.py:199-2856 -/
def memReqsChunks : List (List (String × RuleVal)) := [memReqs0, memReqs1, memReqs2, memReqs3, memReqs4, memReqs5, memReqs6, memReqs7, memReqs8, memReqs9, memReqs10, memReqs11, memReqs12, memReqs13, memReqs14, memReqs15, memReqs16, memReqs17, memReqs18, memReqs19, memReqs20, memReqs21, memReqs22, memReqs23, memReqs24, memReqs25, memReqs26]

/-- rules.py:199-2856 -/
def memReqs : List (String × RuleVal) := memReqsChunks.flatten

end Vermin.Data
