/- Generated by tools/gen_exts.py from vermin/detection.py. -/
namespace Vermin

/-- `NOT_PY_CODE_EXTS` (detection.py:11-425), in order of appearance. -/
def notPyCodeExts : List String := [
  "3dm", "3ds", "3g2", "3gp", "7z", "8svx", "DS_Store", "a", "aac", "ac", "adp", "aff", "ai", "aif", "aifc", "aiff",
  "aix", "alz", "am", "ape", "apk", "applescript", "ar", "arj", "as", "asf", "asm", "au", "avi", "bak", "baml", "bh",
  "bin", "bk", "bmp", "btif", "bz2", "bzip2", "c", "cab", "caf", "cat", "cc", "cdxml", "cfg", "cgm", "cl", "class",
  "cmx", "cnf", "coffee", "conf", "coverity", "cpio", "cpp", "cr2", "crt", "cs", "css", "css_t", "csv", "cur", "cxx",
  "d", "dart", "dat", "dcm", "deb", "dectest", "dex", "dic", "dict", "djvu", "dll", "dmg", "dng", "doc", "docm",
  "docx", "dot", "dotm", "dra", "dsk", "dsp", "dts", "dtshd", "dvb", "dwg", "dxf", "ebnf", "ecelp4800", "ecelp7470",
  "ecelp9600", "egg", "el", "elc", "eol", "eot", "epub", "erl", "es", "exe", "exr", "ext", "f", "f4v", "f90", "fasl",
  "fbs", "fh", "fla", "flac", "fli", "flv", "for", "fpx", "fs", "fsi", "fsscript", "fst", "fsx", "fvt", "g3", "gh",
  "gif", "go", "graffle", "gz", "gzip", "h", "h261", "h263", "h264", "hdr", "hdx", "hh", "hpp", "hrl", "hs", "html",
  "hxx", "i", "icns", "ico", "idl", "idx", "ief", "img", "ini", "ipa", "iso", "jar", "java", "jl", "jpeg", "jpg",
  "jpgv", "jpm", "js", "json", "jxr", "key", "kt", "kts", "ktx", "l", "latex", "lha", "lhs", "lib", "lisp",
  "litcoffee", "lsp", "lua", "lvp", "lz", "lzh", "lzma", "lzo", "m", "m3u", "m4", "m4a", "m4v", "mak", "man", "mar",
  "md", "mdi", "mht", "mid", "midi", "mj2", "mka", "mkv", "ml", "mli", "mm", "mmr", "mng", "mobi", "mov", "movie",
  "mp3", "mp4", "mp4a", "mpeg", "mpg", "mpga", "mxu", "nasm", "nb", "nef", "nib", "npx", "nsi", "nsis", "numbers",
  "nupkg", "nuspec", "o", "oga", "ogg", "ogv", "otf", "pack", "pages", "pbm", "pcx", "pdb", "pdf", "pea", "pem",
  "pgm", "phar", "php", "php-s", "php3", "php4", "php5", "php7", "phps", "pht", "phtml", "pic", "pl", "plist", "pm",
  "png", "pnm", "pod", "pot", "potm", "potx", "ppa", "ppam", "ppm", "pps", "ppsm", "ppsx", "ppt", "pptm", "pptx",
  "pro", "proj", "ps", "ps1", "ps1xml", "psc1", "psd", "psd1", "psm1", "pssc", "pya", "pyc", "pyo", "pyv", "qt", "r",
  "rar", "ras", "raw", "rb", "rc", "rda", "rdata", "rds", "resources", "rgb", "rip", "rlc", "rlib", "rmf", "rmvb",
  "rs", "rst", "rtf", "rz", "s", "s3m", "s7z", "sccd", "scm", "scpt", "scptd", "scss", "sgi", "shar", "sil", "sip",
  "sketch", "slk", "sln", "sml", "smv", "sndt", "snk", "so", "sql", "srl", "ss", "stl", "stp", "sub", "suo", "supp",
  "svg", "swf", "swift", "t", "tar", "tbc", "tbz", "tbz2", "tcl", "tex", "tga", "tgz", "thm", "thmx", "tif", "tiff",
  "tlz", "ttc", "ttf", "txt", "txz", "udf", "ui", "utf8", "uvh", "uvi", "uvm", "uvp", "uvs", "uvu", "valgrind", "vb",
  "vcxproj", "viv", "vob", "voc", "war", "wasm", "wat", "wav", "wax", "wbmp", "wdp", "weba", "webm", "webp", "whl",
  "wim", "wixproj", "wl", "wm", "wma", "wmv", "wmx", "woff", "woff2", "wpr", "wrm", "wvx", "wxl", "wxs", "xbm",
  "xhtml", "xif", "xla", "xlam", "xls", "xlsb", "xlsm", "xlsx", "xlt", "xltm", "xltx", "xm", "xmind", "xml", "xpi",
  "xpm", "xs", "xsl", "xwd", "xz", "yaml", "yml", "z", "zip", "zipx"]

end Vermin
