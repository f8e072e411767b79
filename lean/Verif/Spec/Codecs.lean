import Verif.Spec.Constructs
/-
The functions of Python's module `codecs` and what they are given, from its documentation.
-/
namespace Vermin.Spec
open Vermin

/-- The parameters of the functions and classes that are given encodings or error handlers -/
def codecsParameters : List (String × List String) := [
  ("codecs.encode", ["obj", "encoding", "errors"]), ("codecs.decode", ["obj", "encoding", "errors"]), ("codecs.lookup", ["encoding"]),
  ("codecs.getencoder", ["encoding"]), ("codecs.getdecoder", ["encoding"]), ("codecs.getincrementalencoder", ["encoding"]),
  ("codecs.getincrementaldecoder", ["encoding"]), ("codecs.getreader", ["encoding"]), ("codecs.getwriter", ["encoding"]),
  ("codecs.open", ["filename", "mode", "encoding", "errors", "buffering"]), ("codecs.EncodedFile", ["file", "data_encoding", "file_encoding", "errors"]),
  ("codecs.iterencode", ["iterator", "encoding", "errors"]), ("codecs.iterdecode", ["iterator", "encoding", "errors"]),
  ("codecs.IncrementalEncoder", ["errors"]), ("codecs.IncrementalDecoder", ["errors"]), ("codecs.StreamWriter", ["stream", "errors"]),
  ("codecs.StreamReader", ["stream", "errors"]), ("codecs.StreamReaderWriter", ["stream", "Reader", "Writer", "errors"]),
  ("codecs.StreamRecoder", ["stream", "encode", "decode", "Reader", "Writer", "errors"])]

/-- The parameters for encodings -/
def encodingParameters : List String := ["encoding", "data_encoding", "file_encoding"]

/-- Error handlers that came with Python 3.n -/
def addedHandlers : List (String × Nat) := [("surrogateescape", 1), ("surrogatepass", 1), ("namereplace", 5)]

/-- Encodings that came with Python 3.n -/
def addedEncodings : List (String × Nat) := [("cp65001", 3), ("cp273", 4), ("cp1125", 4), ("koi8_t", 5), ("kz1048", 5), ("oem", 6)]

/-- The call passes the constant for the parameter `x` of `ps`: by position, or by keyword. -/
def GivenFor (n : Node) (ps : List String) (x : String) (e : Const) : Prop :=
  ∃ i, ps[i]? = some x ∧ ((∃ a, (n.fields .args)[i]? = some a ∧ a.kind = .const e) ∨ ((n.fields .args).length ≤ i ∧ ConstKeyword n [x] e))

end Vermin.Spec
