import Verif.Model.Rules
/- Generated from the text of vermin/rules.py:16-197 by tools/gen_rules.py. -/
namespace Vermin.Data
open Vermin Vermin.RuleVal

/-- rules.py:16-197, part 0 -/
def modReqs0 : List (String × RuleVal) := [
  ("BaseHTTPServer", .const (r2 2 0)),
  ("ConfigParser", .const (r2 2 0)),
  ("DocXMLRPCServer", .const (r2 2 3)),
  ("HTMLParser", .const (r2 2 2)),
  ("Queue", .const (r2 2 0)),
  ("SimpleXMLRPCServer", .const (r2 2 2)),
  ("SocketServer", .const (r2 2 0)),
  ("Tkinter", .const (r2 2 0)),
  ("__builtin__", .const (r2 2 0)),
  ("__future__", .const (rb 2 1 3 0)),
  ("_ast", .const (rb 2 5 3 0)),
  ("_dummy_thread", .const (r3 3 0)),
  ("_markupbase", .const (r3 3 0)),
  ("_thread", .const (r3 3 0)),
  ("_winreg", .const (r2 2 0)),
  ("abc", .const (rb 2 6 3 0)),
  ("argparse", .bpv "argparse" (rb 2 7 3 2)),
  ("ast", .const (rb 2 6 3 0)),
  ("asyncio", .bpv "asyncio" (r3 3 4)),
  ("asyncore", .const (rb 2 6 3 0)),
  ("atexit", .const (rb 2 0 3 0)),
  ("audioop", .const (rb 2 5 3 0)),
  ("bisect", .const (rb 2 1 3 0)),
  ("builtins", .const (r3 3 0)),
  ("bz2", .const (rb 2 3 3 0)),
  ("cProfile", .const (rb 2 5 3 0)),
  ("calendar", .const (rb 2 0 3 0)),
  ("cgitb", .const (rb 2 2 3 0)),
  ("collections", .const (rb 2 4 3 0)),
  ("collections.abc", .const (r3 3 3)),
  ("compileall", .const (rb 2 6 3 0)),
  ("concurrent.futures", .const (r3 3 2)),
  ("configparser", .bpv "configparser" (r3 3 0)),
  ("contextlib", .const (rb 2 5 3 0)),
  ("contextvars", .bpv "contextvars" (r3 3 7)),
  ("cookielib", .const (r2 2 4)),
  ("copy_reg", .const (r2 2 0)),
  ("copyreg", .const (r3 3 0)),
  ("csv", .const (rb 2 3 3 0)),
  ("ctypes", .const (rb 2 5 3 0)),
  ("dataclasses", .bpv "dataclasses" (r3 3 7)),
  ("datetime", .const (rb 2 3 3 0)),
  ("dbm.dumb", .const (r3 3 0)),
  ("dbm.gnu", .const (r3 3 0)),
  ("dbm.io", .const (r3 3 0)),
  ("dbm.ndbm", .const (r3 3 0)),
  ("dbm.os", .const (r3 3 0)),
  ("dbm.struct", .const (r3 3 0)),
  ("dbm.sys", .const (r3 3 0)),
  ("dbm.whichdb", .const (r3 3 0)),
  ("decimal", .const (rb 2 4 3 0)),
  ("difflib", .const (rb 2 1 3 0)),
  ("dummy_thread", .const (r2 2 3)),
  ("dummy_threading", .const (r2 2 3)),
  ("email", .const (rb 2 2 3 0)),
  ("email.charset", .const (rb 2 2 3 0)),
  ("email.contentmanager", .const (r3 3 4)),
  ("email.errors", .const (rb 2 4 3 0)),
  ("email.header", .const (rb 2 2 3 0)),
  ("email.headerregistry", .const (r3 3 3)),
  ("email.message", .const (rb 2 2 3 0)),
  ("email.parser", .const (rb 2 2 3 0)),
  ("email.policy", .const (r3 3 3)),
  ("email.utils", .const (rb 2 2 3 0)),
  ("encodings.idna", .const (rb 2 3 3 0)),
  ("encodings.utf_8_sig", .const (rb 2 5 3 0)),
  ("ensurepip", .const (rb 2 7 3 4)),
  ("enum", .bpv "enum" (r3 3 4)),
  ("faulthandler", .bpv "faulthandler" (r3 3 3)),
  ("fractions", .const (rb 2 6 3 0)),
  ("functools", .const (rb 2 5 3 0)),
  ("future_builtins", .const (r2 2 6)),
  ("graphlib", .const (r3 3 9)),
  ("hashlib", .const (rb 2 5 3 0)),
  ("heapq", .const (rb 2 3 3 0)),
  ("hmac", .const (rb 2 2 3 0)),
  ("hotshot", .const (r2 2 2)),
  ("html", .const (r3 3 0)),
  ("htmlentitydefs", .const (r2 2 0)),
  ("http", .const (r3 3 0)),
  ("http.cookiejar", .const (r3 3 0)),
  ("http.server", .const (r3 3 0)),
  ("imghdr", .const (rb 2 5 3 0)),
  ("imp", .const (rb 2 0 3 0)),
  ("importlib", .bpv "importlib" (rb 2 7 3 1)),
  ("importlib.metadata", .const (r3 3 8)),
  ("importlib.resources", .const (r3 3 7)),
  ("importlib.resources.abc", .const (r3 3 11)),
  ("inspect", .const (rb 2 1 3 0)),
  ("io", .const (rb 2 6 3 0)),
  ("ipaddress", .bpv "ipaddress" (r3 3 3)),
  ("itertools", .const (rb 2 3 3 0)),
  ("json", .const (rb 2 6 3 0)),
  ("locale", .const (rb 2 0 3 0)),
  ("logging", .const (rb 2 3 3 0)),
  ("logging.config", .const (rb 2 3 3 0)),
  ("logging.handlers", .const (rb 2 3 3 0)),
  ("lzma", .const (r3 3 3)),
  ("markupbase", .const (r2 2 0)),
  ("md5", .const (r2 2 0))]

/-- rules.py:16-197, part 1 -/
def modReqs1 : List (String × RuleVal) := [
  ("modulefinder", .const (rb 2 3 3 0)),
  ("msilib", .const (rb 2 5 3 0)),
  ("multiprocessing", .const (rb 2 6 3 0)),
  ("multiprocessing.pool", .const (r3 3 0)),
  ("multiprocessing.shared_memory", .const (r3 3 8)),
  ("new", .const (r2 2 0)),
  ("numbers", .const (rb 2 6 3 0)),
  ("optparse", .const (rb 2 3 3 0)),
  ("ossaudiodev", .const (rb 2 3 3 0)),
  ("pathlib", .const (r3 3 4)),
  ("pdb", .const (rb 2 0 3 0)),
  ("pickletools", .const (rb 2 3 3 0)),
  ("pkgutil", .const (rb 2 3 3 0)),
  ("platform", .const (rb 2 3 3 0)),
  ("popen2", .const (r2 2 0)),
  ("pyclbr", .const (rb 2 0 3 0)),
  ("pydoc", .const (rb 2 1 3 0)),
  ("queue", .const (r3 3 0)),
  ("random", .const (rb 2 0 3 0)),
  ("repr", .const (r2 2 0)),
  ("reprlib", .const (r3 3 0)),
  ("runpy", .const (rb 2 5 3 0)),
  ("secrets", .const (r3 3 6)),
  ("selectors", .const (r3 3 4)),
  ("sets", .const (r2 2 3)),
  ("socket", .const (rb 2 0 3 0)),
  ("socketserver", .const (r3 3 0)),
  ("spwd", .const (rb 2 5 3 0)),
  ("sqlite3", .const (rb 2 5 3 0)),
  ("ssl", .const (rb 2 6 3 0)),
  ("statistics", .bpv "statistics" (r3 3 4)),
  ("stringprep", .const (rb 2 3 3 0)),
  ("subprocess", .const (rb 2 4 3 0)),
  ("sysconfig", .const (rb 2 7 3 2)),
  ("tarfile", .const (rb 2 3 3 0)),
  ("test.support.bytecode_helper", .const (r3 3 9)),
  ("test.support.import_helper", .const (r3 3 10)),
  ("test.support.os_helper", .const (r3 3 10)),
  ("test.support.socket_helper", .const (r3 3 9)),
  ("test.support.threading_helper", .const (r3 3 10)),
  ("test.support.warnings_helper", .const (r3 3 10)),
  ("textwrap", .const (rb 2 3 3 0)),
  ("timeit", .const (rb 2 3 3 0)),
  ("tkinter", .const (r3 3 0)),
  ("tomllib", .const (r3 3 11)),
  ("tracemalloc", .const (r3 3 4)),
  ("typing", .bpv "typing" (r3 3 5)),
  ("typing_extensions", .bpv "typing_extensions" (rb 0 0 0 0)),
  ("unittest", .const (rb 2 1 3 0)),
  ("unittest.mock", .const (r3 3 3)),
  ("urllib.parse", .const (r3 3 0)),
  ("urllib2", .const (r2 2 0)),
  ("urlparse", .const (r2 2 0)),
  ("uuid", .const (rb 2 5 3 0)),
  ("venv", .const (r3 3 3)),
  ("warnings", .const (rb 2 1 3 0)),
  ("weakref", .const (rb 2 1 3 0)),
  ("webbrowser", .const (rb 2 0 3 0)),
  ("winreg", .const (r3 3 0)),
  ("wsgiref", .const (rb 2 5 3 0)),
  ("wsgiref.types", .const (r3 3 11)),
  ("xml.dom", .const (rb 2 0 3 0)),
  ("xml.dom.minidom", .const (rb 2 0 3 0)),
  ("xml.dom.pulldom", .const (rb 2 0 3 0)),
  ("xml.etree.ElementInclude", .const (rb 2 5 3 0)),
  ("xml.etree.ElementTree", .const (rb 2 5 3 0)),
  ("xml.parsers.expat", .const (rb 2 0 3 0)),
  ("xml.sax", .const (rb 2 0 3 0)),
  ("xml.sax.handler", .const (rb 2 0 3 0)),
  ("xml.sax.saxutils", .const (rb 2 0 3 0)),
  ("xml.sax.xmlreader", .const (rb 2 0 3 0)),
  ("xmlrpc", .const (r3 3 0)),
  ("xmlrpc.client", .const (r3 3 0)),
  ("xmlrpc.server", .const (r3 3 0)),
  ("xmlrpclib", .const (r2 2 2)),
  ("zipapp", .const (r3 3 5)),
  ("zipimport", .const (rb 2 3 3 0)),
  ("zoneinfo", .bpv "zoneinfo" (r3 3 9))]

/-- rules.py:16-197 -/
def modReqsChunks : List (List (String × RuleVal)) := [modReqs0, modReqs1]

/-- rules.py:16-197 -/
def modReqs : List (String × RuleVal) := modReqsChunks.flatten

end Vermin.Data
