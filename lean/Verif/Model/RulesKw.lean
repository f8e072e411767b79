import Verif.Model.Rules
/- Generated from the text of vermin/rules.py:2858-3754 by tools/gen_rules.py. -/
namespace Vermin.Data
open Vermin Vermin.RuleVal

/-- rules.py:2858-3754, part 0 -/
def kwReqs0 : List ((String × String) × RuleVal) := [
  (("BaseHTTPServer.BaseHTTPRequestHandler.date_time_string", "timestamp"), .const (r2 2 5)),
  (("ConfigParser.ConfigParser", "allow_no_value"), .const (r2 2 6)),
  (("ConfigParser.ConfigParser", "dict_type"), .const (r2 2 6)),
  (("ConfigParser.RawConfigParser", "allow_no_value"), .const (r2 2 6)),
  (("ConfigParser.RawConfigParser", "dict_type"), .const (r2 2 6)),
  (("ConfigParser.SafeConfigParser", "allow_no_value"), .const (r2 2 6)),
  (("ConfigParser.SafeConfigParser", "dict_type"), .const (r2 2 6)),
  (("ImportError", "name"), .const (r3 3 3)),
  (("ImportError", "path"), .const (r3 3 3)),
  (("OSError", "filename2"), .const (r3 3 4)),
  (("Queue.Queue.get", "timeout"), .const (r2 2 3)),
  (("Queue.Queue.put", "timeout"), .const (r2 2 3)),
  (("SimpleXMLRPCServer.CGIXMLRPCRequestHandler", "allow_none"), .const (r2 2 5)),
  (("SimpleXMLRPCServer.CGIXMLRPCRequestHandler", "encoding"), .const (r2 2 5)),
  (("SimpleXMLRPCServer.SimpleXMLRPCServer", "allow_none"), .const (r2 2 5)),
  (("SimpleXMLRPCServer.SimpleXMLRPCServer", "bind_and_activate"), .const (r2 2 6)),
  (("SimpleXMLRPCServer.SimpleXMLRPCServer", "encoding"), .const (r2 2 5)),
  (("SimpleXMLRPCServer.SimpleXMLRPCServer.register_instance", "allow_dotted_names"), .const (r2 2 3)),
  (("Tkinter.Tk", "useTk"), .const (r2 2 4)),
  (("__import__", "level"), .const (rb 2 5 3 0)),
  (("_thread.lock.acquire", "timeout"), .const (r3 3 2)),
  (("_thread.interrupt_main", "signum"), .const (r3 3 10)),
  (("argparse.ArgumentParser", "allow_abbrev"), .const (r3 3 5)),
  (("argparse.ArgumentParser", "exit_on_error"), .const (r3 3 9)),
  (("argparse.ArgumentParser.add_subparsers", "required"), .const (r3 3 7)),
  (("argparse.FileType", "encodings"), .const (r3 3 4)),
  (("argparse.FileType", "errors"), .const (r3 3 4)),
  (("array.array.index", "start"), .const (r3 3 10)),
  (("array.array.index", "stop"), .const (r3 3 10)),
  (("ast.dump", "indent"), .const (r3 3 9)),
  (("ast.parse", "feature_version"), .const (r3 3 8)),
  (("ast.parse", "type_comments"), .const (r3 3 8)),
  (("asyncio.Future.add_done_callback", "context"), .const (r3 3 7)),
  (("asyncio.Future.cancel", "msg"), .const (r3 3 9)),
  (("asyncio.Task", "context"), .const (r3 3 11)),
  (("asyncio.Task", "eager_start"), .const (r3 3 12)),
  (("asyncio.Task", "name"), .const (r3 3 8)),
  (("asyncio.Task.cancel", "msg"), .const (r3 3 9)),
  (("asyncio.create_task", "context"), .const (r3 3 11)),
  (("asyncio.create_task", "name"), .const (r3 3 8)),
  (("asyncio.loop.call_at", "context"), .const (r3 3 7)),
  (("asyncio.loop.call_later", "context"), .const (r3 3 7)),
  (("asyncio.loop.call_soon", "context"), .const (r3 3 7)),
  (("asyncio.loop.call_soon_threadsafe", "context"), .const (r3 3 7)),
  (("asyncio.loop.connect_accepted_socket", "ssl_handshake_timeout"), .const (r3 3 7)),
  (("asyncio.loop.connect_accepted_socket", "ssl_shutdown_timeout"), .const (r3 3 11)),
  (("asyncio.loop.create_connection", "happy_eyeballs_delay"), .const (r3 3 8)),
  (("asyncio.loop.create_connection", "interleave"), .const (r3 3 8)),
  (("asyncio.loop.create_connection", "ssl_handshake_timeout"), .const (r3 3 7)),
  (("asyncio.loop.create_connection", "ssl_shutdown_timeout"), .const (r3 3 11)),
  (("asyncio.loop.create_datagram_endpoint", "allow_broadcast"), .const (r3 3 4)),
  (("asyncio.loop.create_datagram_endpoint", "family"), .const (r3 3 4)),
  (("asyncio.loop.create_datagram_endpoint", "flags"), .const (r3 3 4)),
  (("asyncio.loop.create_datagram_endpoint", "proto"), .const (r3 3 4)),
  (("asyncio.loop.create_datagram_endpoint", "reuse_address"), .const (r3 3 4)),
  (("asyncio.loop.create_datagram_endpoint", "reuse_port"), .const (r3 3 4)),
  (("asyncio.loop.create_datagram_endpoint", "sock"), .const (r3 3 4)),
  (("asyncio.loop.create_server", "ssl_handshake_timeout"), .const (r3 3 6)),
  (("asyncio.loop.create_server", "ssl_shutdown_timeout"), .const (r3 3 11)),
  (("asyncio.loop.create_server", "start_serving"), .const (r3 3 6)),
  (("asyncio.loop.create_task", "context"), .const (r3 3 11)),
  (("asyncio.loop.create_task", "name"), .const (r3 3 8)),
  (("asyncio.loop.create_unix_connection", "path"), .const (r3 3 7)),
  (("asyncio.loop.create_unix_connection", "ssl_handshake_timeout"), .const (r3 3 7)),
  (("asyncio.loop.create_unix_connection", "ssl_shutdown_timeout"), .const (r3 3 11)),
  (("asyncio.loop.create_unix_server", "path"), .const (r3 3 7)),
  (("asyncio.loop.create_unix_server", "ssl_handshake_timeout"), .const (r3 3 7)),
  (("asyncio.loop.create_unix_server", "ssl_shutdown_timeout"), .const (r3 3 11)),
  (("asyncio.loop.create_unix_server", "start_serving"), .const (r3 3 7)),
  (("asyncio.loop.start_tls", "ssl_shutdown_timeout"), .const (r3 3 11)),
  (("asyncio.open_connection", "ssl_handshake_timeout"), .const (r3 3 7)),
  (("asyncio.open_unix_connection", "path"), .const (r3 3 7)),
  (("asyncio.open_unix_connection", "ssl_handshake_timeout"), .const (r3 3 7)),
  (("asyncio.run", "loop_factory"), .const (r3 3 12)),
  (("asyncio.start_server", "ssl_handshake_timeout"), .const (r3 3 7)),
  (("asyncio.start_server", "start_serving"), .const (r3 3 7)),
  (("asyncio.start_unix_server", "path"), .const (r3 3 7)),
  (("asyncio.start_unix_server", "ssl_handshake_timeout"), .const (r3 3 7)),
  (("asyncio.start_unix_server", "start_serving"), .const (r3 3 7)),
  (("bdb.Bdb", "skip"), .const (rb 2 7 3 1)),
  (("binascii.a2b_base64", "strict_mode"), .const (r3 3 11)),
  (("binascii.b2a_base64", "newline"), .const (r3 3 6)),
  (("binascii.b2a_hex", "bytes_per_sep"), .const (r3 3 8)),
  (("binascii.b2a_hex", "sep"), .const (r3 3 8)),
  (("binascii.b2a_uu", "backtick"), .const (r3 3 7)),
  (("binascii.hexlify", "bytes_per_sep"), .const (r3 3 8)),
  (("binascii.hexlify", "sep"), .const (r3 3 8)),
  (("bisect.bisect", "key"), .const (r3 3 10)),
  (("bisect.bisect_left", "key"), .const (r3 3 10)),
  (("bisect.bisect_right", "key"), .const (r3 3 10)),
  (("bisect.insort", "key"), .const (r3 3 10)),
  (("bisect.insort_left", "key"), .const (r3 3 10)),
  (("bisect.insort_right", "key"), .const (r3 3 10)),
  (("bytearray.decode", "encoding"), .const (r3 3 2)),
  (("bytearray.decode", "errors"), .const (r3 3 2)),
  (("bytearray.hex", "bytes_per_sep"), .const (r3 3 8)),
  (("bytearray.hex", "sep"), .const (r3 3 8)),
  (("bytearray.translate", "delete"), .const (r3 3 6)),
  (("bytes.decode", "encoding"), .const (r3 3 2)),
  (("bytes.decode", "errors"), .const (r3 3 2))]

/-- rules.py:2858-3754, part 1 -/
def kwReqs1 : List ((String × String) × RuleVal) := [
  (("bytes.hex", "bytes_per_sep"), .const (r3 3 8)),
  (("bytes.hex", "sep"), .const (r3 3 8)),
  (("bytes.translate", "delete"), .const (r3 3 6)),
  (("bz2.BZ2Decompressor.decompress", "max_length"), .const (r3 3 5)),
  (("cgi.parse", "separator"), .const (r3 3 6)),
  (("cgi.parse_multipart", "encoding"), .const (r3 3 7)),
  (("cgi.parse_multipart", "errors"), .const (r3 3 7)),
  (("cgi.parse_multipart", "separator"), .const (r3 3 6)),
  (("cgi.parse_qs", "max_num_fields"), .const (r2 2 7)),
  (("cgi.parse_qsl", "max_num_fields"), .const (r2 2 7)),
  (("cmath.log", "base"), .const (rb 2 4 3 0)),
  (("cmd.Cmd", "stdin"), .const (rb 2 3 3 0)),
  (("cmd.Cmd", "stdout"), .const (rb 2 3 3 0)),
  (("code.interact", "exitmsg"), .const (r3 3 6)),
  (("codecs.StreamReader.read", "chars"), .const (rb 2 4 3 0)),
  (("codecs.StreamReader.read", "firstline"), .const (rb 2 4 3 0)),
  (("codecs.StreamReader.readline", "keepends"), .const (rb 2 4 3 0)),
  (("collections.ChainMap.new_child", "m"), .const (r3 3 4)),
  (("collections.abc.ByteString.index", "start"), .const (r3 3 5)),
  (("collections.abc.ByteString.index", "stop"), .const (r3 3 5)),
  (("collections.abc.MutableSequence.index", "start"), .const (r3 3 5)),
  (("collections.abc.MutableSequence.index", "stop"), .const (r3 3 5)),
  (("collections.abc.Sequence.index", "start"), .const (r3 3 5)),
  (("collections.abc.Sequence.index", "stop"), .const (r3 3 5)),
  (("collections.deque", "maxlen"), .const (rb 2 6 3 0)),
  (("collections.namedtuple", "defaults"), .const (r3 3 7)),
  (("collections.namedtuple", "module"), .const (r3 3 6)),
  (("collections.namedtuple", "rename"), .const (rb 2 7 3 1)),
  (("compile", "dont_inherit"), .const (rb 2 3 3 0)),
  (("compile", "flags"), .const (rb 2 3 3 0)),
  (("compile", "optimize"), .const (r3 3 2)),
  (("compileall.compile_dir", "hardlink_dupes"), .const (r3 3 9)),
  (("compileall.compile_dir", "invalidation_mode"), .const (r3 3 7)),
  (("compileall.compile_dir", "legacy"), .const (r3 3 2)),
  (("compileall.compile_dir", "limit_sl_dest"), .const (r3 3 9)),
  (("compileall.compile_dir", "optimize"), .const (r3 3 2)),
  (("compileall.compile_dir", "prependdir"), .const (r3 3 9)),
  (("compileall.compile_dir", "stripdir"), .const (r3 3 9)),
  (("compileall.compile_dir", "workers"), .const (r3 3 5)),
  (("compileall.compile_file", "hardlink_dupes"), .const (r3 3 9)),
  (("compileall.compile_file", "invalidation_mode"), .const (r3 3 7)),
  (("compileall.compile_file", "limit_sl_dest"), .const (r3 3 9)),
  (("compileall.compile_file", "prependdir"), .const (r3 3 9)),
  (("compileall.compile_file", "stripdir"), .const (r3 3 9)),
  (("compileall.compile_path", "invalidation_mode"), .const (r3 3 7)),
  (("compileall.compile_path", "legacy"), .const (r3 3 2)),
  (("compileall.compile_path", "optimize"), .const (r3 3 2)),
  (("concurrent.futures.Executor.map", "chunksize"), .const (r3 3 5)),
  (("concurrent.futures.Executor.shutdown", "cancel_futures"), .const (r3 3 9)),
  (("concurrent.futures.ProcessPoolExecutor", "initargs"), .const (r3 3 7)),
  (("concurrent.futures.ProcessPoolExecutor", "initializer"), .const (r3 3 7)),
  (("concurrent.futures.ProcessPoolExecutor", "max_tasks_per_child"), .const (r3 3 11)),
  (("concurrent.futures.ProcessPoolExecutor", "mp_context"), .const (r3 3 7)),
  (("concurrent.futures.ThreadPoolExecutor", "initargs"), .const (r3 3 7)),
  (("concurrent.futures.ThreadPoolExecutor", "initializer"), .const (r3 3 7)),
  (("concurrent.futures.ThreadPoolExecutor", "thread_name_prefix"), .const (r3 3 6)),
  (("configparser.ConfigParser", "allow_no_value"), .bpv "configparser" (r3 3 2)),
  (("configparser.ConfigParser", "comment_prefixes"), .bpv "configparser" (r3 3 2)),
  (("configparser.ConfigParser", "converters"), .bpv "configparser" (r3 3 5)),
  (("configparser.ConfigParser", "default_section"), .bpv "configparser" (r3 3 2)),
  (("configparser.ConfigParser", "delimiters"), .bpv "configparser" (r3 3 2)),
  (("configparser.ConfigParser", "empty_lines_in_values"), .bpv "configparser" (r3 3 2)),
  (("configparser.ConfigParser", "interpolation"), .bpv "configparser" (r3 3 2)),
  (("configparser.ConfigParser", "strict"), .bpv "configparser" (r3 3 2)),
  (("configparser.ConfigParser.read", "encoding"), .bpv "configparser" (r3 3 2)),
  (("configparser.RawConfigParser", "allow_no_value"), .bpv "configparser" (r3 3 2)),
  (("configparser.RawConfigParser", "comment_prefixes"), .bpv "configparser" (r3 3 2)),
  (("configparser.RawConfigParser", "converters"), .bpv "configparser" (r3 3 5)),
  (("configparser.RawConfigParser", "default_section"), .bpv "configparser" (r3 3 2)),
  (("configparser.RawConfigParser", "delimiters"), .bpv "configparser" (r3 3 2)),
  (("configparser.RawConfigParser", "empty_lines_in_values"), .bpv "configparser" (r3 3 2)),
  (("configparser.RawConfigParser", "interpolation"), .bpv "configparser" (r3 3 2)),
  (("configparser.RawConfigParser", "strict"), .bpv "configparser" (r3 3 2)),
  (("configparser.RawConfigParser.read", "encoding"), .bpv "configparser" (r3 3 2)),
  (("configparser.DuplicateSectionError", "lineno"), .bpv "configparser" (r3 3 2)),
  (("configparser.DuplicateSectionError", "source"), .bpv "configparser" (r3 3 2)),
  (("configparser.ParsingError", "source"), .bpv "configparser" (r3 3 2)),
  (("crypt.mksalt", "rounds"), .const (r3 3 7)),
  (("ctypes.CDLL", "use_errno"), .const (rb 2 6 3 0)),
  (("ctypes.CDLL", "use_last_error"), .const (rb 2 6 3 0)),
  (("ctypes.CDLL", "winmode"), .const (r3 3 8)),
  (("ctypes.CFUNCTYPE", "use_errno"), .const (rb 2 6 3 0)),
  (("ctypes.CFUNCTYPE", "use_last_error"), .const (rb 2 6 3 0)),
  (("ctypes.OleDLL", "use_errno"), .const (rb 2 6 3 0)),
  (("ctypes.OleDLL", "use_last_error"), .const (rb 2 6 3 0)),
  (("ctypes.OleDLL", "winmode"), .const (r3 3 8)),
  (("ctypes.WinDLL", "use_errno"), .const (rb 2 6 3 0)),
  (("ctypes.WinDLL", "use_last_error"), .const (rb 2 6 3 0)),
  (("ctypes.WinDLL", "winmode"), .const (r3 3 8)),
  (("ctypes.byref", "offset"), .const (rb 2 6 3 0)),
  (("dataclasses.dataclass", "kw_only"), .const (r3 3 10)),
  (("dataclasses.dataclass", "match_args"), .const (r3 3 10)),
  (("dataclasses.dataclass", "slots"), .const (r3 3 10)),
  (("dataclasses.field", "kw_only"), .const (r3 3 10)),
  (("datetime.datetime", "fold"), .const (r3 3 6)),
  (("datetime.datetime.combine", "tzinfo"), .const (r3 3 6)),
  (("datetime.datetime.isoformat", "timespec"), .const (r3 3 6)),
  (("datetime.datetime.replace", "fold"), .const (r3 3 6)),
  (("datetime.time.isoformat", "timespec"), .const (r3 3 6)),
  (("datetime.time.replace", "fold"), .const (r3 3 6))]

/-- rules.py:2858-3754, part 2 -/
def kwReqs2 : List ((String × String) × RuleVal) := [
  (("difflib.HtmlDiff.make_file", "charset"), .const (r3 3 5)),
  (("difflib.SequenceMatcher", "autojunk"), .const (rb 2 7 3 2)),
  (("dis.Bytecode", "show_caches"), .const (r3 3 11)),
  (("dis.dis", "depth"), .const (r3 3 7)),
  (("dis.dis", "file"), .const (r3 3 4)),
  (("dis.dis", "show_caches"), .const (r3 3 11)),
  (("dis.disassemble", "file"), .const (r3 3 4)),
  (("dis.disassemble", "show_caches"), .const (r3 3 11)),
  (("dis.disco", "file"), .const (r3 3 4)),
  (("dis.disco", "show_caches"), .const (r3 3 11)),
  (("dis.distb", "file"), .const (r3 3 4)),
  (("dis.distb", "show_caches"), .const (r3 3 11)),
  (("dis.get_instructions", "show_caches"), .const (r3 3 11)),
  (("dis.show_code", "file"), .const (r3 3 4)),
  (("dis.stack_effect", "jump"), .const (r3 3 8)),
  (("doctest.DocFileSuite", "encoding"), .const (rb 2 5 3 0)),
  (("doctest.DocTestSuite", "extraglobs"), .const (rb 2 4 3 0)),
  (("doctest.DocTestSuite", "globs"), .const (rb 2 4 3 0)),
  (("doctest.DocTestSuite", "optionflags"), .const (rb 2 4 3 0)),
  (("doctest.DocTestSuite", "setUp"), .const (rb 2 4 3 0)),
  (("doctest.DocTestSuite", "tearDown"), .const (rb 2 4 3 0)),
  (("doctest.DocTestSuite", "test_finder"), .const (rb 2 4 3 0)),
  (("doctest.debug", "pm"), .const (rb 2 4 3 0)),
  (("doctest.testfile", "encoding"), .const (rb 2 5 3 0)),
  (("doctest.testmod", "exclude_empty"), .const (rb 2 4 3 0)),
  (("doctest.testmod", "extraglobs"), .const (rb 2 4 3 0)),
  (("doctest.testmod", "optionflags"), .const (rb 2 3 3 0)),
  (("doctest.testmod", "raise_on_error"), .const (rb 2 4 3 0)),
  (("email.generator.BytesGenerator", "policy"), .const (r3 3 3)),
  (("email.generator.Generator", "policy"), .const (r3 3 3)),
  (("email.generator.Generator.flatten", "linesep"), .const (r3 3 2)),
  (("email.header.Header.encode", "linesep"), .const (r3 3 2)),
  (("email.message.EmailMessage.set_param", "replace"), .const (r3 3 4)),
  (("email.message.Message", "policy"), .const (r3 3 3)),
  (("email.message.Message.as_string", "policy"), .const (r3 3 4)),
  (("email.message.Message.get_param", "unquote"), .const (rb 2 2 3 0)),
  (("email.message.Message.get_params", "unquote"), .const (rb 2 2 3 0)),
  (("email.message.Message.set_param", "replace"), .const (r3 3 4)),
  (("email.message.Message.set_payload", "charset"), .const (rb 2 2 3 0)),
  (("email.message_from_binary_file", "policy"), .const (r3 3 3)),
  (("email.message_from_bytes", "policy"), .const (r3 3 3)),
  (("email.message_from_file", "policy"), .const (r3 3 3)),
  (("email.message_from_file", "strict"), .const (rb 2 2 3 0)),
  (("email.message_from_string", "policy"), .const (r3 3 3)),
  (("email.message_from_string", "strict"), .const (rb 2 2 3 0)),
  (("email.mime.application.MIMEApplication", "policy"), .const (r3 3 6)),
  (("email.mime.audio.MIMEAudio", "policy"), .const (r3 3 6)),
  (("email.mime.base.MIMEBase", "policy"), .const (r3 3 6)),
  (("email.mime.image.MIMEImage", "policy"), .const (r3 3 6)),
  (("email.mime.message.MIMEMessage", "policy"), .const (r3 3 6)),
  (("email.mime.multipart.MIMEMultipart", "policy"), .const (r3 3 6)),
  (("email.mime.text.MIMEText", "policy"), .const (r3 3 6)),
  (("email.parser.BytesFeedParser", "policy"), .const (r3 3 3)),
  (("email.parser.BytesParser", "policy"), .const (r3 3 3)),
  (("email.parser.FeedParser", "policy"), .const (r3 3 3)),
  (("email.parser.Parser", "policy"), .const (r3 3 3)),
  (("email.parser.Parser", "strict"), .const (rb 2 2 3 0)),
  (("email.parser.Parser.parse", "headersonly"), .const (rb 2 2 3 0)),
  (("email.parser.Parser.parsestr", "headersonly"), .const (rb 2 2 3 0)),
  (("email.policy.Policy", "mangle_from_"), .const (r3 3 5)),
  (("email.utils.formataddr", "charset"), .const (r3 3 3)),
  (("email.utils.formatdate", "charset"), .const (r3 3 3)),
  (("email.utils.make_msgid", "domain"), .const (r3 3 2)),
  (("enum.Enum", "start"), .bpv "enum" (r3 3 5)),
  (("enumerate", "start"), .const (rb 2 6 3 0)),
  (("exec", "closure"), .const (r3 3 11)),
  (("fileinput.FileInput", "encoding"), .const (r3 3 10)),
  (("fileinput.FileInput", "errors"), .const (r3 3 10)),
  (("fileinput.FileInput", "mode"), .const (rb 2 5 3 0)),
  (("fileinput.FileInput", "openhook"), .const (rb 2 5 3 0)),
  (("fileinput.hook_compressed", "encoding"), .const (r3 3 10)),
  (("fileinput.hook_compressed", "errors"), .const (r3 3 10)),
  (("fileinput.hook_encoded", "errors"), .const (r3 3 6)),
  (("fileinput.input", "encoding"), .const (r3 3 10)),
  (("fileinput.input", "errors"), .const (r3 3 10)),
  (("fileinput.input", "mode"), .const (rb 2 5 3 0)),
  (("fileinput.input", "openhook"), .const (rb 2 5 3 0)),
  (("ftplib.FTP", "encoding"), .const (r3 3 9)),
  (("ftplib.FTP", "source_address"), .const (r3 3 3)),
  (("ftplib.FTP", "timeout"), .const (rb 2 6 3 0)),
  (("ftplib.FTP.connect", "source_address"), .const (r3 3 3)),
  (("ftplib.FTP.connect", "timeout"), .const (rb 2 6 3 0)),
  (("ftplib.FTP.storbinary", "callback"), .const (rb 2 6 3 0)),
  (("ftplib.FTP.storbinary", "rest"), .const (rb 2 7 3 2)),
  (("ftplib.FTP.storlines", "callback"), .const (rb 2 6 3 0)),
  (("ftplib.FTP_TLS", "context"), .const (rb 2 7 3 2)),
  (("ftplib.FTP_TLS", "encoding"), .const (r3 3 9)),
  (("ftplib.FTP_TLS", "source_address"), .const (r3 3 3)),
  (("functools.lru_cache", "typed"), .const (r3 3 3)),
  (("gc.collect", "generation"), .const (rb 2 5 3 0)),
  (("gc.get_objects", "generation"), .const (r3 3 8)),
  (("getpass.getpass", "stream"), .const (rb 2 5 3 0)),
  (("gettext.NullTranslations.install", "names"), .const (rb 2 5 3 0)),
  (("gettext.install", "codeset"), .const (rb 2 4 3 0)),
  (("gettext.install", "names"), .const (rb 2 5 3 0)),
  (("gettext.translation", "codeset"), .const (rb 2 4 3 0)),
  (("glob.glob", "dir_fd"), .const (r3 3 10)),
  (("glob.glob", "include_hidden"), .const (r3 3 11)),
  (("glob.glob", "recursive"), .const (r3 3 5)),
  (("glob.glob", "root_dir"), .const (r3 3 10))]

/-- rules.py:2858-3754, part 3 -/
def kwReqs3 : List ((String × String) × RuleVal) := [
  (("glob.iglob", "dir_fd"), .const (r3 3 10)),
  (("glob.iglob", "include_hidden"), .const (r3 3 11)),
  (("glob.iglob", "recursive"), .const (r3 3 5)),
  (("glob.iglob", "root_dir"), .const (r3 3 10)),
  (("gzip.GzipFile", "mtime"), .const (rb 2 7 3 1)),
  (("gzip.compress", "mtime"), .const (r3 3 8)),
  (("gzip.open", "encoding"), .const (r3 3 3)),
  (("gzip.open", "errors"), .const (r3 3 3)),
  (("gzip.open", "newline"), .const (r3 3 3)),
  (("hashlib.blake2b", "usedforsecurity"), .const (r3 3 9)),
  (("hashlib.blake2s", "usedforsecurity"), .const (r3 3 9)),
  (("hashlib.md5", "usedforsecurity"), .const (r3 3 9)),
  (("hashlib.new", "usedforsecurity"), .const (r3 3 9)),
  (("hashlib.sha1", "usedforsecurity"), .const (r3 3 9)),
  (("hashlib.sha224", "usedforsecurity"), .const (r3 3 9)),
  (("hashlib.sha256", "usedforsecurity"), .const (r3 3 9)),
  (("hashlib.sha384", "usedforsecurity"), .const (r3 3 9)),
  (("hashlib.sha3_224", "usedforsecurity"), .const (r3 3 9)),
  (("hashlib.sha3_256", "usedforsecurity"), .const (r3 3 9)),
  (("hashlib.sha3_384", "usedforsecurity"), .const (r3 3 9)),
  (("hashlib.sha3_512", "usedforsecurity"), .const (r3 3 9)),
  (("hashlib.sha512", "usedforsecurity"), .const (r3 3 9)),
  (("hashlib.shake_128", "usedforsecurity"), .const (r3 3 9)),
  (("hashlib.shake_256", "usedforsecurity"), .const (r3 3 9)),
  (("heapq.merge", "key"), .const (r3 3 5)),
  (("heapq.merge", "reverse"), .const (r3 3 5)),
  (("heapq.nlargest", "key"), .const (rb 2 5 3 0)),
  (("heapq.nsmallest", "key"), .const (rb 2 5 3 0)),
  (("html.parser.HTMLParser", "convert_charrefs"), .const (r3 3 4)),
  (("http.client.HTTPConnection", "blocksize"), .const (r3 3 7)),
  (("http.client.HTTPConnection", "source_address"), .const (r3 3 2)),
  (("http.client.HTTPConnection.endheaders", "encode_chunked"), .const (r3 3 6)),
  (("http.client.HTTPConnection.request", "encode_chunked"), .const (r3 3 6)),
  (("http.client.HTTPSConnection", "check_hostname"), .const (r3 3 2)),
  (("http.client.HTTPSConnection", "context"), .const (r3 3 2)),
  (("http.client.HTTPSConnection", "source_address"), .const (r3 3 2)),
  (("http.server.BaseHTTPRequestHandler.send_error", "explain"), .const (r3 3 4)),
  (("http.server.SimpleHTTPRequestHandler", "directory"), .const (r3 3 7)),
  (("httplib.HTTPConnection", "source_address"), .const (r2 2 7)),
  (("httplib.HTTPConnection", "timeout"), .const (r2 2 6)),
  (("httplib.HTTPConnection.endheaders", "message_body"), .const (r2 2 7)),
  (("httplib.HTTPConnection.putrequest", "skip_accept_encoding"), .const (r2 2 4)),
  (("httplib.HTTPSConnection", "context"), .const (r2 2 7)),
  (("httplib.HTTPSConnection", "source_address"), .const (r2 2 7)),
  (("httplib.HTTPSConnection", "timeout"), .const (r2 2 6)),
  (("imaplib.IMAP4", "timeout"), .const (r3 3 9)),
  (("imaplib.IMAP4.open", "timeout"), .const (r3 3 9)),
  (("imaplib.IMAP4_SSL", "ssl_context"), .const (r3 3 3)),
  (("imaplib.IMAP4_SSL", "timeout"), .const (r3 3 9)),
  (("importlib.util.cache_from_source", "optimization"), .const (r3 3 5)),
  (("inspect.Signature.from_callable", "globalns"), .const (r3 3 10)),
  (("inspect.Signature.from_callable", "localns"), .const (r3 3 10)),
  (("inspect.signature", "eval_str"), .const (r3 3 10)),
  (("inspect.signature", "follow_wrapped"), .const (r3 3 5)),
  (("inspect.signature", "globals"), .const (r3 3 10)),
  (("inspect.signature", "locals"), .const (r3 3 10)),
  (("io.FileIO", "opener"), .const (r3 3 3)),
  (("io.TextIOWrapper", "write_through"), .const (r3 3 3)),
  (("io.TextIOWrapper.reconfigure", "encoding"), .const (r3 3 11)),
  (("io.open", "opener"), .const (r3 3 3)),
  (("itertools.accumulate", "func"), .const (r3 3 3)),
  (("itertools.accumulate", "initial"), .const (r3 3 8)),
  (("itertools.count", "step"), .const (rb 2 7 3 1)),
  (("json.JSONDecoder", "object_pairs_hook"), .const (rb 2 7 3 1)),
  (("json.load", "object_pairs_hook"), .const (rb 2 7 3 1)),
  (("linecache.getline", "module_globals"), .const (rb 2 5 3 0)),
  (("locale.format", "monetary"), .const (rb 2 5 3 0)),
  (("locale.format_string", "monetary"), .const (r3 3 7)),
  (("logging.FileHandler", "delay"), .const (rb 2 6 3 0)),
  (("logging.FileHandler", "errors"), .const (r3 3 9)),
  (("logging.Formatter", "defaults"), .const (r3 3 10)),
  (("logging.Formatter", "style"), .const (r3 3 2)),
  (("logging.Formatter", "validate"), .const (r3 3 8)),
  (("logging.LogRecord", "func"), .const (rb 2 5 3 0)),
  (("logging.Logger.critical", "stack_info"), .const (r3 3 2)),
  (("logging.Logger.critical", "stacklevel"), .const (r3 3 8)),
  (("logging.Logger.debug", "stack_info"), .const (r3 3 2)),
  (("logging.Logger.debug", "stacklevel"), .const (r3 3 8)),
  (("logging.Logger.error", "stack_info"), .const (r3 3 2)),
  (("logging.Logger.error", "stacklevel"), .const (r3 3 8)),
  (("logging.Logger.exception", "stack_info"), .const (r3 3 2)),
  (("logging.Logger.exception", "stacklevel"), .const (r3 3 8)),
  (("logging.Logger.info", "stack_info"), .const (r3 3 2)),
  (("logging.Logger.info", "stacklevel"), .const (r3 3 8)),
  (("logging.Logger.log", "stack_info"), .const (r3 3 2)),
  (("logging.Logger.log", "stacklevel"), .const (r3 3 8)),
  (("logging.Logger.makeRecord", "extra"), .const (rb 2 5 3 0)),
  (("logging.Logger.makeRecord", "func"), .const (rb 2 5 3 0)),
  (("logging.Logger.warn", "stack_info"), .const (r3 3 2)),
  (("logging.Logger.warn", "stacklevel"), .const (r3 3 8)),
  (("logging.Logger.warning", "stack_info"), .const (r3 3 2)),
  (("logging.Logger.warning", "stacklevel"), .const (r3 3 8)),
  (("logging.basicConfig", "datefmt"), .const (rb 2 4 3 0)),
  (("logging.basicConfig", "encoding"), .const (r3 3 9)),
  (("logging.basicConfig", "errors"), .const (r3 3 9)),
  (("logging.basicConfig", "filemode"), .const (rb 2 4 3 0)),
  (("logging.basicConfig", "filename"), .const (rb 2 4 3 0)),
  (("logging.basicConfig", "force"), .const (r3 3 8)),
  (("logging.basicConfig", "format"), .const (rb 2 4 3 0)),
  (("logging.basicConfig", "handlers"), .const (r3 3 3))]

/-- rules.py:2858-3754, part 4 -/
def kwReqs4 : List ((String × String) × RuleVal) := [
  (("logging.basicConfig", "level"), .const (rb 2 4 3 0)),
  (("logging.basicConfig", "stream"), .const (rb 2 4 3 0)),
  (("logging.basicConfig", "style"), .const (r3 3 2)),
  (("logging.config.fileConfig", "disable_existing_loggers"), .const (rb 2 6 3 0)),
  (("logging.config.fileConfig", "encoding"), .const (r3 3 10)),
  (("logging.config.listen", "verify"), .const (r3 3 4)),
  (("logging.critical", "extra"), .const (rb 2 5 3 0)),
  (("logging.critical", "stack_info"), .const (r3 3 2)),
  (("logging.critical", "stacklevel"), .const (r3 3 8)),
  (("logging.debug", "extra"), .const (rb 2 5 3 0)),
  (("logging.debug", "stack_info"), .const (r3 3 2)),
  (("logging.debug", "stacklevel"), .const (r3 3 8)),
  (("logging.error", "extra"), .const (rb 2 5 3 0)),
  (("logging.error", "stack_info"), .const (r3 3 2)),
  (("logging.error", "stacklevel"), .const (r3 3 8)),
  (("logging.exception", "extra"), .const (rb 2 5 3 0)),
  (("logging.exception", "stack_info"), .const (r3 3 2)),
  (("logging.exception", "stacklevel"), .const (r3 3 8)),
  (("logging.handlers.HTTPHandler", "context"), .const (r3 3 5)),
  (("logging.handlers.MemoryHandler", "flushOnClose"), .const (r3 3 6)),
  (("logging.handlers.QueueListener", "respect_handler_level"), .const (r3 3 5)),
  (("logging.handlers.RotatingFileHandler", "delay"), .const (rb 2 6 3 0)),
  (("logging.handlers.RotatingFileHandler", "errors"), .const (r3 3 9)),
  (("logging.handlers.SMTPHandler", "credentials"), .const (rb 2 6 3 0)),
  (("logging.handlers.SMTPHandler", "secure"), .const (rb 2 7 3 0)),
  (("logging.handlers.SMTPHandler", "timeout"), .const (r3 3 3)),
  (("logging.handlers.SysLogHandler", "socktype"), .const (rb 2 7 3 2)),
  (("logging.handlers.TimedRotatingFileHandler", "atTime"), .const (r3 3 4)),
  (("logging.handlers.TimedRotatingFileHandler", "delay"), .const (rb 2 6 3 0)),
  (("logging.handlers.TimedRotatingFileHandler", "errors"), .const (r3 3 9)),
  (("logging.handlers.TimedRotatingFileHandler", "utc"), .const (rb 2 6 3 0)),
  (("logging.handlers.WatchedFileHandler", "errors"), .const (r3 3 9)),
  (("logging.info", "extra"), .const (rb 2 5 3 0)),
  (("logging.info", "stack_info"), .const (r3 3 2)),
  (("logging.info", "stacklevel"), .const (r3 3 8)),
  (("logging.log", "extra"), .const (rb 2 5 3 0)),
  (("logging.log", "stack_info"), .const (r3 3 2)),
  (("logging.log", "stacklevel"), .const (r3 3 8)),
  (("logging.warn", "stack_info"), .const (r3 3 2)),
  (("logging.warn", "stacklevel"), .const (r3 3 8)),
  (("logging.warning", "extra"), .const (rb 2 5 3 0)),
  (("logging.warning", "stack_info"), .const (r3 3 2)),
  (("logging.warning", "stacklevel"), .const (r3 3 8)),
  (("lzma.LZMADecompressor.decompress", "max_length"), .const (r3 3 5)),
  (("marshal.dump", "version"), .const (rb 2 4 3 0)),
  (("marshal.dumps", "version"), .const (rb 2 4 3 0)),
  (("math.log", "base"), .const (rb 2 3 3 0)),
  (("math.nextafter", "steps"), .const (r3 3 12)),
  (("max", "default"), .const (r3 3 4)),
  (("max", "key"), .const (rb 2 5 3 0)),
  (("memoryview.hex", "bytes_per_sep"), .const (r3 3 8)),
  (("memoryview.hex", "sep"), .const (r3 3 8)),
  (("min", "default"), .const (r3 3 4)),
  (("min", "key"), .const (rb 2 5 3 0)),
  (("multiprocessing.Pool", "maxtasksperchild"), .const (rb 2 7 3 2)),
  (("multiprocessing.Process", "daemon"), .const (r3 3 3)),
  (("multiprocessing.managers.BaseManager", "shutdown_timeout"), .const (r3 3 11)),
  (("multiprocessing.pool.Pool", "context"), .const (r3 3 4)),
  (("multiprocessing.pool.Pool", "maxtasksperchild"), .const (r3 3 2)),
  (("nis.cat", "domain"), .const (rb 2 5 3 0)),
  (("nis.maps", "domain"), .const (rb 2 5 3 0)),
  (("nis.match", "domain"), .const (rb 2 5 3 0)),
  (("nntplib.NNTP", "usenetrc"), .const (rb 2 4 3 0)),
  (("nntplib.NNTP.list", "group_pattern"), .const (r3 3 2)),
  (("open", "closefd"), .const (r3 3 0)),
  (("open", "encoding"), .const (r3 3 0)),
  (("open", "errors"), .const (r3 3 0)),
  (("open", "newline"), .const (r3 3 0)),
  (("open", "opener"), .const (r3 3 3)),
  (("os.access", "dir_fd"), .const (r3 3 3)),
  (("os.access", "effective_ids"), .const (r3 3 3)),
  (("os.access", "follow_symlinks"), .const (r3 3 3)),
  (("os.chflags", "follow_symlinks"), .const (r3 3 3)),
  (("os.chmod", "dir_fd"), .const (r3 3 3)),
  (("os.chmod", "follow_symlinks"), .const (r3 3 3)),
  (("os.chown", "dir_fd"), .const (r3 3 3)),
  (("os.chown", "follow_symlinks"), .const (r3 3 3)),
  (("os.dup2", "inheritable"), .const (r3 3 4)),
  (("os.link", "dst_dir_fd"), .const (r3 3 3)),
  (("os.link", "follow_symlinks"), .const (r3 3 3)),
  (("os.link", "src_dir_fd"), .const (r3 3 3)),
  (("os.lstat", "dir_fd"), .const (r3 3 3)),
  (("os.makedirs", "exist_ok"), .const (r3 3 2)),
  (("os.mkdir", "dir_fd"), .const (r3 3 3)),
  (("os.mkfifo", "dir_fd"), .const (r3 3 3)),
  (("os.mknod", "dir_fd"), .const (r3 3 3)),
  (("os.open", "dir_fd"), .const (r3 3 3)),
  (("os.path.realpath", "strict"), .const (r3 3 10)),
  (("os.readlink", "dir_fd"), .const (r3 3 3)),
  (("os.remove", "dir_fd"), .const (r3 3 3)),
  (("os.rename", "dst_dir_fd"), .const (r3 3 3)),
  (("os.rename", "src_dir_fd"), .const (r3 3 3)),
  (("os.rmdir", "dir_fd"), .const (r3 3 3)),
  (("os.sendfile", "in_fd"), .const (r3 3 9)),
  (("os.sendfile", "out_fd"), .const (r3 3 9)),
  (("os.startfile", "arguments"), .const (r3 3 10)),
  (("os.startfile", "cwd"), .const (r3 3 10)),
  (("os.startfile", "operation"), .const (rb 2 5 3 0)),
  (("os.startfile", "show_cmd"), .const (r3 3 10)),
  (("os.stat", "dir_fd"), .const (r3 3 3))]

/-- rules.py:2858-3754, part 5 -/
def kwReqs5 : List ((String × String) × RuleVal) := [
  (("os.stat", "follow_symlinks"), .const (r3 3 3)),
  (("os.symlink", "dir_fd"), .const (r3 3 3)),
  (("os.unlink", "dir_fd"), .const (r3 3 3)),
  (("os.utime", "dir_fd"), .const (r3 3 3)),
  (("os.utime", "follow_symlinks"), .const (r3 3 3)),
  (("os.utime", "ns"), .const (r3 3 3)),
  (("os.walk", "followlinks"), .const (rb 2 6 3 0)),
  (("pathlib.Path.chmod", "follow_symlinks"), .const (r3 3 10)),
  (("pathlib.Path.exists", "follow_symlinks"), .const (r3 3 12)),
  (("pathlib.Path.glob", "case_sensitive"), .const (r3 3 12)),
  (("pathlib.Path.rglob", "case_sensitive"), .const (r3 3 12)),
  (("pathlib.Path.mkdir", "exist_ok"), .const (r3 3 5)),
  (("pathlib.Path.resolve", "strict"), .const (r3 3 6)),
  (("pathlib.Path.stat", "follow_symlinks"), .const (r3 3 10)),
  (("pathlib.Path.unlink", "missing_ok"), .const (r3 3 8)),
  (("pathlib.Path.write_text", "newline"), .const (r3 3 10)),
  (("pathlib.PurePath.match", "case_sensitive"), .const (r3 3 12)),
  (("pathlib.PurePath.relative_to", "walk_up"), .const (r3 3 12)),
  (("pdb.Pdb", "nosigint"), .const (r3 3 2)),
  (("pdb.Pdb", "readrc"), .const (r3 3 6)),
  (("pdb.Pdb", "skip"), .const (rb 2 7 3 1)),
  (("pdb.set_trace", "header"), .const (r3 3 7)),
  (("pickle.Pickler", "buffer_callback"), .const (r3 3 8)),
  (("pickle.Pickler", "protocol"), .const (rb 2 3 3 0)),
  (("pickle.Unpickler", "buffers"), .const (r3 3 8)),
  (("pickle.Unpickler", "encoding"), .const (r3 3 0)),
  (("pickle.Unpickler", "errors"), .const (r3 3 0)),
  (("pickle.dump", "buffer_callback"), .const (r3 3 8)),
  (("pickle.dump", "protocol"), .const (rb 2 3 3 0)),
  (("pickle.dumps", "buffer_callback"), .const (r3 3 8)),
  (("pickle.dumps", "protocol"), .const (rb 2 3 3 0)),
  (("pickle.load", "buffers"), .const (r3 3 8)),
  (("pickle.load", "encoding"), .const (r3 3 0)),
  (("pickle.load", "errors"), .const (r3 3 0)),
  (("pickle.loads", "buffers"), .const (r3 3 8)),
  (("pickle.loads", "encoding"), .const (r3 3 0)),
  (("pickle.loads", "errors"), .const (r3 3 0)),
  (("pickletools.dis", "annotate"), .const (r3 3 2)),
  (("poplib.POP3", "timeout"), .const (rb 2 6 3 0)),
  (("poplib.POP3_SSL", "context"), .const (r3 3 2)),
  (("pow", "base"), .const (r3 3 8)),
  (("pow", "exp"), .const (r3 3 8)),
  (("pow", "mod"), .const (r3 3 8)),
  (("pprint.PrettyPrinter", "compact"), .const (r3 3 4)),
  (("pprint.PrettyPrinter", "sort_dicts"), .const (r3 3 8)),
  (("pprint.PrettyPrinter", "underscore_numbers"), .const (r3 3 10)),
  (("pprint.pformat", "compact"), .const (r3 3 4)),
  (("pprint.pformat", "depth"), .const (rb 2 4 3 0)),
  (("pprint.pformat", "indent"), .const (rb 2 4 3 0)),
  (("pprint.pformat", "sort_dicts"), .const (r3 3 8)),
  (("pprint.pformat", "underscore_numbers"), .const (r3 3 10)),
  (("pprint.pformat", "width"), .const (rb 2 4 3 0)),
  (("pprint.pprint", "compact"), .const (r3 3 4)),
  (("pprint.pprint", "depth"), .const (rb 2 4 3 0)),
  (("pprint.pprint", "indent"), .const (rb 2 4 3 0)),
  (("pprint.pprint", "sort_dicts"), .const (r3 3 8)),
  (("pprint.pprint", "underscore_numbers"), .const (r3 3 10)),
  (("pprint.pprint", "width"), .const (rb 2 4 3 0)),
  (("print", "flush"), .const (r3 3 3)),
  (("py_compile.compile", "invalidation_mode"), .const (r3 3 7)),
  (("py_compile.compile", "optimize"), .const (r3 3 2)),
  (("py_compile.compile", "quiet"), .const (r3 3 8)),
  (("pyclbr.Class", "end_lineno"), .const (r3 3 10)),
  (("pyclbr.Class", "parent"), .const (r3 3 7)),
  (("pyclbr.Function", "end_lineno"), .const (r3 3 10)),
  (("pyclbr.Function", "is_async"), .const (r3 3 10)),
  (("pyclbr.Function", "parent"), .const (r3 3 7)),
  (("random.sample", "counts"), .const (r3 3 9)),
  (("re.findall", "flags"), .const (rb 2 4 3 0)),
  (("re.finditer", "flags"), .const (rb 2 4 3 0)),
  (("re.split", "flags"), .const (rb 2 7 3 1)),
  (("re.sub", "flags"), .const (rb 2 7 3 1)),
  (("re.subn", "flags"), .const (rb 2 7 3 1)),
  (("sched.scheduler.enter", "kwargs"), .const (r3 3 3)),
  (("sched.scheduler.enterabs", "kwargs"), .const (r3 3 3)),
  (("sched.scheduler.run", "blocking"), .const (r3 3 3)),
  (("select.epoll", "flags"), .const (r3 3 3)),
  (("select.kqueue.control", "timeout"), .const (r3 3 0)),
  (("shelve.Shelf", "keyencoding"), .const (r3 3 2)),
  (("shelve.Shelf", "protocol"), .const (rb 2 3 3 0)),
  (("shelve.open", "protocol"), .const (rb 2 3 3 0)),
  (("shlex.shlex", "punctuation_chars"), .const (r3 3 6)),
  (("shlex.split", "posix"), .const (rb 2 6 3 0)),
  (("shutil.copy", "follow_symlinks"), .const (r3 3 3)),
  (("shutil.copy2", "follow_symlinks"), .const (r3 3 3)),
  (("shutil.copyfile", "follow_symlinks"), .const (r3 3 3)),
  (("shutil.copymode", "follow_symlinks"), .const (r3 3 3)),
  (("shutil.copystat", "follow_symlinks"), .const (r3 3 3)),
  (("shutil.copytree", "copy_function"), .const (r3 3 2)),
  (("shutil.copytree", "dirs_exist_ok"), .const (r3 3 8)),
  (("shutil.copytree", "ignore"), .const (rb 2 6 3 0)),
  (("shutil.copytree", "ignore_dangling_symlinks"), .const (r3 3 2)),
  (("shutil.move", "copy_function"), .const (r3 3 5)),
  (("shutil.rmtree", "dir_fd"), .const (r3 3 11)),
  (("shutil.rmtree", "onexc"), .const (r3 3 12)),
  (("shutil.unpack_archive", "filter"), .const (r3 3 12)),
  (("signal.set_wakeup_fd", "warn_on_full_buffer"), .const (r3 3 7)),
  (("smtpd.SMTPChannel", "decode_data"), .const (r3 3 5)),
  (("smtpd.SMTPChannel", "enable_SMTPUTF8"), .const (r3 3 5)),
  (("smtpd.SMTPServer", "decode_data"), .const (r3 3 5))]

/-- rules.py:2858-3754, part 6 -/
def kwReqs6 : List ((String × String) × RuleVal) := [
  (("smtpd.SMTPServer", "enable_SMTPUTF8"), .const (r3 3 5)),
  (("smtpd.SMTPServer", "map"), .const (r3 3 4)),
  (("smtplib.LMTP", "timeout"), .const (r3 3 9)),
  (("smtplib.SMTP", "source_address"), .const (r3 3 3)),
  (("smtplib.SMTP", "timeout"), .const (rb 2 6 3 0)),
  (("smtplib.SMTP.login", "initial_response_ok"), .const (r3 3 5)),
  (("smtplib.SMTP.starttls", "context"), .const (r3 3 3)),
  (("smtplib.SMTP_SSL", "context"), .const (r3 3 3)),
  (("smtplib.SMTP_SSL", "source_address"), .const (r3 3 3)),
  (("socket.create_connection", "all_errors"), .const (r3 3 11)),
  (("socket.create_connection", "source_address"), .const (rb 2 7 3 2)),
  (("socket.setsockopt", "optlen"), .const (r3 3 6)),
  (("sorted", "key"), .const (rb 2 4 3 0)),
  (("sorted", "reverse"), .const (rb 2 4 3 0)),
  (("sqlite3.Connection.create_function", "deterministic"), .const (r3 3 8)),
  (("sqlite3.Connection.load_extension", "entrypoint"), .const (r3 3 12)),
  (("sqlite3.connect", "autocommit"), .const (r3 3 12)),
  (("sqlite3.connect", "uri"), .const (r3 3 4)),
  (("ssl.SSLContext.load_cert_chain", "password"), .const (r3 3 3)),
  (("ssl.SSLContext.load_verify_locations", "cadata"), .const (r3 3 4)),
  (("ssl.SSLContext.wrap_bio", "session"), .const (r3 3 6)),
  (("ssl.SSLContext.wrap_socket", "session"), .const (r3 3 6)),
  (("ssl.get_server_certificate", "timeout"), .const (r3 3 10)),
  (("ssl.wrap_socket", "ciphers"), .const (rb 2 7 3 2)),
  (("statistics.fmean", "weights"), .const (r3 3 11)),
  (("statistics.harmonic_mean", "weights"), .const (r3 3 10)),
  (("statistics.linear_regression", "proportional"), .const (r3 3 11)),
  (("str.decode", "encoding"), .const (r2 2 7)),
  (("str.decode", "errors"), .const (r2 2 7)),
  (("str.encode", "encoding"), .const (rb 2 7 3 1)),
  (("str.encode", "errors"), .const (rb 2 7 3 1)),
  (("str.ljust", "fillchar"), .const (rb 2 4 3 0)),
  (("str.lstrip", "chars"), .const (rb 2 2 3 0)),
  (("str.rjust", "fillchar"), .const (rb 2 4 3 0)),
  (("str.rstrip", "chars"), .const (rb 2 2 3 0)),
  (("str.strip", "chars"), .const (rb 2 2 3 0)),
  (("string.lstrip", "chars"), .const (r2 2 3)),
  (("string.rstrip", "chars"), .const (r2 2 3)),
  (("string.strip", "chars"), .const (r2 2 3)),
  (("subprocess.Popen", "encoding"), .const (r3 3 6)),
  (("subprocess.Popen", "errors"), .const (r3 3 6)),
  (("subprocess.Popen", "extra_groups"), .const (r3 3 9)),
  (("subprocess.Popen", "group"), .const (r3 3 9)),
  (("subprocess.Popen", "pass_fds"), .const (r3 3 2)),
  (("subprocess.Popen", "pipesize"), .const (r3 3 10)),
  (("subprocess.Popen", "process_group"), .const (r3 3 11)),
  (("subprocess.Popen", "restore_signals"), .const (r3 3 2)),
  (("subprocess.Popen", "start_new_session"), .const (r3 3 2)),
  (("subprocess.Popen", "text"), .const (r3 3 7)),
  (("subprocess.Popen", "umask"), .const (r3 3 9)),
  (("subprocess.Popen", "user"), .const (r3 3 9)),
  (("subprocess.Popen.communicate", "timeout"), .const (r3 3 3)),
  (("subprocess.Popen.wait", "timeout"), .const (r3 3 3)),
  (("subprocess.CalledProcessError", "stderr"), .const (r3 3 5)),
  (("subprocess.CalledProcessError", "stdout"), .const (r3 3 5)),
  (("subprocess.STARTUPINFO", "lpAttributeList"), .const (r3 3 7)),
  (("subprocess.TimeoutExpired", "stderr"), .const (r3 3 5)),
  (("subprocess.TimeoutExpired", "stdout"), .const (r3 3 5)),
  (("subprocess.call", "encoding"), .const (r3 3 6)),
  (("subprocess.call", "errors"), .const (r3 3 6)),
  (("subprocess.call", "extra_groups"), .const (r3 3 9)),
  (("subprocess.call", "group"), .const (r3 3 9)),
  (("subprocess.call", "pass_fds"), .const (r3 3 2)),
  (("subprocess.call", "pipesize"), .const (r3 3 10)),
  (("subprocess.call", "process_group"), .const (r3 3 11)),
  (("subprocess.call", "restore_signals"), .const (r3 3 2)),
  (("subprocess.call", "start_new_session"), .const (r3 3 2)),
  (("subprocess.call", "text"), .const (r3 3 7)),
  (("subprocess.call", "timeout"), .const (r3 3 3)),
  (("subprocess.call", "umask"), .const (r3 3 9)),
  (("subprocess.call", "user"), .const (r3 3 9)),
  (("subprocess.check_call", "encoding"), .const (r3 3 6)),
  (("subprocess.check_call", "errors"), .const (r3 3 6)),
  (("subprocess.check_call", "extra_groups"), .const (r3 3 9)),
  (("subprocess.check_call", "group"), .const (r3 3 9)),
  (("subprocess.check_call", "pass_fds"), .const (r3 3 2)),
  (("subprocess.check_call", "pipesize"), .const (r3 3 10)),
  (("subprocess.check_call", "process_group"), .const (r3 3 11)),
  (("subprocess.check_call", "restore_signals"), .const (r3 3 2)),
  (("subprocess.check_call", "start_new_session"), .const (r3 3 2)),
  (("subprocess.check_call", "text"), .const (r3 3 7)),
  (("subprocess.check_call", "timeout"), .const (r3 3 3)),
  (("subprocess.check_call", "umask"), .const (r3 3 9)),
  (("subprocess.check_call", "user"), .const (r3 3 9)),
  (("subprocess.check_output", "encoding"), .const (r3 3 6)),
  (("subprocess.check_output", "errors"), .const (r3 3 6)),
  (("subprocess.check_output", "extra_groups"), .const (r3 3 9)),
  (("subprocess.check_output", "group"), .const (r3 3 9)),
  (("subprocess.check_output", "input"), .const (r3 3 4)),
  (("subprocess.check_output", "pass_fds"), .const (r3 3 2)),
  (("subprocess.check_output", "pipesize"), .const (r3 3 10)),
  (("subprocess.check_output", "process_group"), .const (r3 3 11)),
  (("subprocess.check_output", "restore_signals"), .const (r3 3 2)),
  (("subprocess.check_output", "start_new_session"), .const (r3 3 2)),
  (("subprocess.check_output", "text"), .const (r3 3 7)),
  (("subprocess.check_output", "timeout"), .const (r3 3 3)),
  (("subprocess.check_output", "umask"), .const (r3 3 9)),
  (("subprocess.check_output", "user"), .const (r3 3 9)),
  (("subprocess.getoutput", "encoding"), .const (r3 3 11)),
  (("subprocess.getoutput", "errors"), .const (r3 3 11))]

/-- rules.py:2858-3754, part 7 -/
def kwReqs7 : List ((String × String) × RuleVal) := [
  (("subprocess.getstatusoutput", "encoding"), .const (r3 3 11)),
  (("subprocess.getstatusoutput", "errors"), .const (r3 3 11)),
  (("subprocess.run", "capture_output"), .const (r3 3 7)),
  (("subprocess.run", "encoding"), .const (r3 3 6)),
  (("subprocess.run", "errors"), .const (r3 3 6)),
  (("subprocess.run", "extra_groups"), .const (r3 3 9)),
  (("subprocess.run", "group"), .const (r3 3 9)),
  (("subprocess.run", "pipesize"), .const (r3 3 10)),
  (("subprocess.run", "text"), .const (r3 3 7)),
  (("subprocess.run", "umask"), .const (r3 3 9)),
  (("subprocess.run", "user"), .const (r3 3 9)),
  (("sum", "start"), .const (r3 3 8)),
  (("sys.getwindowsversion", "platform_version"), .const (r3 3 6)),
  (("tarfile.TarFile", "encoding"), .const (rb 2 6 3 0)),
  (("tarfile.TarFile", "errors"), .const (rb 2 6 3 0)),
  (("tarfile.TarFile", "format"), .const (rb 2 6 3 0)),
  (("tarfile.TarFile", "pax_headers"), .const (rb 2 6 3 0)),
  (("tarfile.TarFile", "tarinfo"), .const (rb 2 6 3 0)),
  (("tarfile.TarFile.add", "exclude"), .const (rb 2 6 3 0)),
  (("tarfile.TarFile.add", "filter"), .const (rb 2 7 3 2)),
  (("tarfile.TarFile.extract", "filter"), .const (r3 3 12)),
  (("tarfile.TarFile.extract", "numeric_owner"), .const (r3 3 5)),
  (("tarfile.TarFile.extract", "set_attrs"), .const (r3 3 2)),
  (("tarfile.TarFile.extractall", "filter"), .const (r3 3 12)),
  (("tarfile.TarFile.extractall", "numeric_owner"), .const (r3 3 5)),
  (("tarfile.TarFile.list", "members"), .const (r3 3 5)),
  (("tarfile.TarInfo.tobuf", "encoding"), .const (rb 2 6 3 0)),
  (("tarfile.TarInfo.tobuf", "errors"), .const (rb 2 6 3 0)),
  (("tarfile.TarInfo.tobuf", "format"), .const (rb 2 6 3 0)),
  (("telnetlib.Telnet", "timeout"), .const (rb 2 6 3 0)),
  (("telnetlib.Telnet.open", "timeout"), .const (rb 2 6 3 0)),
  (("tempfile.NamedTemporaryFile", "delete"), .const (rb 2 6 3 0)),
  (("tempfile.NamedTemporaryFile", "errors"), .const (r3 3 8)),
  (("tempfile.NamedTemporaryFile", "delete_on_close"), .const (r3 3 12)),
  (("tempfile.SpooledTemporaryFile", "errors"), .const (r3 3 8)),
  (("tempfile.SpooledTemporaryFile.truncate", "size"), .const (r3 3 3)),
  (("tempfile.TemporaryDirectory", "delete"), .const (r3 3 12)),
  (("tempfile.TemporaryDirectory", "ignore_cleanup_errors"), .const (r3 3 10)),
  (("tempfile.TemporaryFile", "errors"), .const (r3 3 8)),
  (("test.support.check_warnings", "quiet"), .const (rb 2 7 3 2)),
  (("threading.Lock.acquire", "blocking"), .const (r3 3 0)),
  (("threading.Lock.acquire", "timeout"), .const (r3 3 2)),
  (("threading.RLock.acquire", "blocking"), .const (r3 3 0)),
  (("threading.RLock.acquire", "timeout"), .const (r3 3 2)),
  (("threading.Semaphore.acquire", "timeout"), .const (r3 3 2)),
  (("threading.Semaphore.release", "n"), .const (r3 3 9)),
  (("threading.Thread", "daemon"), .const (r3 3 3)),
  (("timeit.Timer", "globals"), .const (r3 3 5)),
  (("timeit.repeat", "globals"), .const (r3 3 5)),
  (("timeit.timeit", "globals"), .const (r3 3 5)),
  (("tkinter.font.nametofont", "root"), .const (r3 3 10)),
  (("traceback.TracebackException", "compact"), .const (r3 3 10)),
  (("tracemalloc.Filter", "domain"), .const (r3 3 6)),
  (("typing.get_type_hints", "include_extras"), .const (r3 3 9)),
  (("unittest.TestCase.assertAlmostEqual", "delta"), .const (rb 2 7 3 2)),
  (("unittest.TestCase.assertNotAlmostEqual", "delta"), .const (rb 2 7 3 2)),
  (("unittest.TestCase.assertRaises", "msg"), .const (r3 3 3)),
  (("unittest.TestCase.assertRaisesRegex", "msg"), .const (r3 3 3)),
  (("unittest.TestCase.assertWarns", "msg"), .const (r3 3 3)),
  (("unittest.TestCase.assertWarnsRegex", "msg"), .const (r3 3 3)),
  (("unittest.TestLoader.loadTestsFromModule", "pattern"), .const (r3 3 5)),
  (("unittest.TextTestRunner", "tb_locals"), .const (r3 3 5)),
  (("unittest.TextTestRunner", "warnings"), .const (r3 3 2)),
  (("unittest.main", "buffer"), .const (rb 2 7 3 2)),
  (("unittest.main", "catchbreak"), .const (rb 2 7 3 2)),
  (("unittest.main", "exit"), .const (rb 2 7 3 1)),
  (("unittest.main", "failfast"), .const (rb 2 7 3 2)),
  (("unittest.main", "verbosity"), .const (rb 2 7 3 2)),
  (("unittest.main", "warnings"), .const (r3 3 2)),
  (("unittest.mock.Mock", "unsafe"), .const (r3 3 5)),
  (("unittest.mock.Mock.reset_mock", "return_value"), .const (r3 3 6)),
  (("unittest.mock.Mock.reset_mock", "side_effect"), .const (r3 3 6)),
  (("urllib.URLopener", "context"), .const (r2 2 7)),
  (("urllib.parse.parse_qs", "encoding"), .const (r3 3 2)),
  (("urllib.parse.parse_qs", "errors"), .const (r3 3 2)),
  (("urllib.parse.parse_qs", "max_num_fields"), .const (r3 3 6)),
  (("urllib.parse.parse_qs", "separator"), .const (r3 3 6)),
  (("urllib.parse.parse_qsl", "encoding"), .const (r3 3 2)),
  (("urllib.parse.parse_qsl", "errors"), .const (r3 3 2)),
  (("urllib.parse.parse_qsl", "max_num_fields"), .const (r3 3 6)),
  (("urllib.parse.parse_qsl", "separator"), .const (r3 3 6)),
  (("urllib.parse.urlencode", "quote_via"), .const (r3 3 5)),
  (("urllib.request.HTTPSHandler", "check_hostname"), .const (r3 3 2)),
  (("urllib.request.HTTPSHandler", "context"), .const (r3 3 2)),
  (("urllib.request.Request", "method"), .const (r3 3 3)),
  (("urllib.request.urlopen", "cadefault"), .const (r3 3 3)),
  (("urllib.request.urlopen", "cafile"), .const (r3 3 2)),
  (("urllib.request.urlopen", "capath"), .const (r3 3 2)),
  (("urllib.request.urlopen", "context"), .const (r3 3 4)),
  (("urllib.urlopen", "context"), .const (r2 2 7)),
  (("urllib.urlopen", "proxies"), .const (r2 2 3)),
  (("urllib.urlretrieve", "context"), .const (r2 2 7)),
  (("urllib2.HTTPSHandler", "context"), .const (r2 2 7)),
  (("urllib2.OpenerDirector.open", "timeout"), .const (r2 2 6)),
  (("urllib2.urlopen", "cadefault"), .const (r2 2 7)),
  (("urllib2.urlopen", "cafile"), .const (r2 2 7)),
  (("urllib2.urlopen", "capth"), .const (r2 2 7)),
  (("urllib2.urlopen", "context"), .const (r2 2 7)),
  (("urllib2.urlopen", "timeout"), .const (r2 2 6)),
  (("urlparse.parse_qs", "max_num_fields"), .const (r2 2 7))]

/-- rules.py:2858-3754, part 8 -/
def kwReqs8 : List ((String × String) × RuleVal) := [
  (("urlparse.parse_qsl", "max_num_fields"), .const (r2 2 7)),
  (("uu.encode", "backtick"), .const (r3 3 7)),
  (("venv.EnvBuilder", "prompt"), .const (r3 3 6)),
  (("venv.EnvBuilder", "upgrade_deps"), .const (r3 3 9)),
  (("venv.EnvBuilder", "with_pip"), .const (r3 3 4)),
  (("venv.create", "prompt"), .const (r3 3 6)),
  (("venv.create", "upgrade_deps"), .const (r3 3 9)),
  (("venv.create", "with_pip"), .const (r3 3 4)),
  (("warnings.catch_warnings", "action"), .const (r3 3 11)),
  (("warnings.catch_warnings", "append"), .const (r3 3 11)),
  (("warnings.catch_warnings", "category"), .const (r3 3 11)),
  (("warnings.catch_warnings", "lineno"), .const (r3 3 11)),
  (("warnings.formatwarning", "line"), .const (rb 2 6 3 0)),
  (("warnings.showwarning", "line"), .const (rb 2 7 3 0)),
  (("warnings.warn", "source"), .const (r3 3 6)),
  (("warnings.warn_explicit", "module_globals"), .const (rb 2 5 3 0)),
  (("warnings.warn_explicit", "source"), .const (r3 3 6)),
  (("webbrowser.register", "preferred"), .const (r3 3 7)),
  (("winreg.OpenKey", "access"), .const (r3 3 2)),
  (("winreg.OpenKey", "key"), .const (r3 3 2)),
  (("winreg.OpenKey", "reserved"), .const (r3 3 2)),
  (("winreg.OpenKey", "sub_key"), .const (r3 3 2)),
  (("winreg.OpenKeyEx", "access"), .const (r3 3 2)),
  (("winreg.OpenKeyEx", "key"), .const (r3 3 2)),
  (("winreg.OpenKeyEx", "reserved"), .const (r3 3 2)),
  (("winreg.OpenKeyEx", "sub_key"), .const (r3 3 2)),
  (("xml.dom.minidom.Document.writexml", "encoding"), .const (rb 2 3 3 0)),
  (("xml.dom.minidom.Node.toprettyxml", "encoding"), .const (rb 2 3 3 0)),
  (("xml.dom.minidom.Node.toprettyxml", "standalone"), .const (r3 3 9)),
  (("xml.dom.minidom.Node.toxml", "encoding"), .const (rb 2 3 3 0)),
  (("xml.dom.minidom.Node.toxml", "standalone"), .const (r3 3 9)),
  (("xml.dom.minidom.Node.writexml", "addindent"), .const (rb 2 1 3 0)),
  (("xml.dom.minidom.Node.writexml", "encoding"), .const (r3 3 0)),
  (("xml.dom.minidom.Node.writexml", "indent"), .const (rb 2 1 3 0)),
  (("xml.dom.minidom.Node.writexml", "newl"), .const (rb 2 1 3 0)),
  (("xml.dom.minidom.Node.writexml", "standalone"), .const (r3 3 9)),
  (("xml.etree.ElementInclude.include", "base_url"), .const (r3 3 9)),
  (("xml.etree.ElementInclude.include", "max_depth"), .const (r3 3 9)),
  (("xml.etree.ElementTree.ElementTree.write", "short_empty_elements"), .const (r3 3 4)),
  (("xml.etree.ElementTree.tostring", "default_namespace"), .const (r3 3 8)),
  (("xml.etree.ElementTree.tostring", "short_empty_elements"), .const (r3 3 4)),
  (("xml.etree.ElementTree.tostring", "xml_declaration"), .const (r3 3 8)),
  (("xml.etree.ElementTree.tostringlist", "default_namespace"), .const (r3 3 8)),
  (("xml.etree.ElementTree.tostringlist", "short_empty_elements"), .const (r3 3 4)),
  (("xml.etree.ElementTree.tostringlist", "xml_declaration"), .const (r3 3 8)),
  (("xml.etree.ElementTree.write", "short_empty_elements"), .const (r3 3 4)),
  (("xml.sax.saxutils.XMLGenerator", "short_empty_elements"), .const (r3 3 2)),
  (("xmlrpc.client.ServerProxy", "context"), .const (r3 3 4)),
  (("xmlrpc.client.ServerProxy", "headers"), .const (r3 3 8)),
  (("xmlrpc.client.ServerProxy", "use_builtin_types"), .const (r3 3 3)),
  (("xmlrpc.client.loads", "use_builtin_types"), .const (r3 3 3)),
  (("xmlrpc.server.CGIXMLRPCRequestHandler", "use_builtin_types"), .const (r3 3 3)),
  (("xmlrpc.server.DocXMLRPCServer", "use_builtin_types"), .const (r3 3 3)),
  (("xmlrpc.server.SimpleXMLRPCServer", "use_builtin_types"), .const (r3 3 3)),
  (("xmlrpclib.ServerProxy", "context"), .const (r2 2 7)),
  (("xmlrpclib.ServerProxy", "use_datetime"), .const (r2 2 5)),
  (("xmlrpclib.loads", "use_datetime"), .const (r2 2 5)),
  (("zip", "strict"), .const (r3 3 10)),
  (("zipapp.create_archive", "compressed"), .const (r3 3 7)),
  (("zipapp.create_archive", "filter"), .const (r3 3 7)),
  (("zipfile.PyZipFile", "optimize"), .const (r3 3 2)),
  (("zipfile.PyZipFile.writepy", "filterfunc"), .const (r3 3 4)),
  (("zipfile.ZipFile", "compresslevel"), .const (r3 3 7)),
  (("zipfile.ZipFile", "metadata_encoding"), .const (r3 3 11)),
  (("zipfile.ZipFile", "strict_timestamps"), .const (r3 3 8)),
  (("zipfile.ZipFile.read", "pwd"), .const (rb 2 6 3 0)),
  (("zipfile.ZipFile.writestr", "compress_type"), .const (rb 2 7 3 2)),
  (("zipfile.ZipInfo.from_file", "strict_timestamps"), .const (r3 3 8)),
  (("zlib.Decompress.decompress", "max_length"), .const (r3 3 6)),
  (("zlib.compress", "level"), .const (r3 3 6)),
  (("zlib.compress", "wbits"), .const (r3 3 11)),
  (("zlib.compressobj", "zdict"), .const (r3 3 3)),
  (("zlib.decompress", "bufsize"), .const (r3 3 6)),
  (("zlib.decompress", "wbits"), .const (r3 3 6)),
  (("zlib.decompressobj", "zdict"), .const (r3 3 3))]

/-- rules.py:2858-3754 -/
def kwReqsChunks : List (List ((String × String) × RuleVal)) := [kwReqs0, kwReqs1, kwReqs2, kwReqs3, kwReqs4, kwReqs5, kwReqs6, kwReqs7, kwReqs8]

/-- rules.py:2858-3754 -/
def kwReqs : List ((String × String) × RuleVal) := kwReqsChunks.flatten

end Vermin.Data
