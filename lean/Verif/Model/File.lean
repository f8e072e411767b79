import Verif.Model.Minimum
import Verif.Model.Parser
import Verif.Model.Processor
/-
Models `Processor.process_individual` (processor.py:100-148) and `visit` / `detect` of vermin/detection.py.
What Python's own parser, tokenizer and file system do is an input.
-/
namespace Vermin
open Py

/-- The outcome of reading and parsing a file (processor.py:106-110, parser.py:18-24). -/
inductive ParseOut where
  /-- an AST and the tokens -/
  | ok (node : Node) (toks : List Tok)
  | syntaxError (e : SynErr)
  /-- `ValueError` or `TypeError`: null bytes -/
  | notPython
  /-- any other `Exception` (unreadable file, encoding, tokenizer, ..) with the text of processor.py:123 -/
  | failed (text : String)

/-- Python's side of an analysis: the decoded source, `ast.dump`, the order of sets, the running major version. -/
structure Host where
  source : Option (List Char)
  dump : Node → String
  order : List String → List String
  major : Nat

/-- The state of the visitor for a file (processor.py:129-130; parser.py:21-24). -/
def Env.make (cfg : Config) (h : Host) (path : String) (toks : List Tok) : Env :=
  { cfg := cfg, path := path, source := h.source, noLines := if cfg.parseComments then comments toks else [],
    tables := Tables.std cfg, dump := h.dump, order := h.order }

/-- The assertion about paths (source_state.py:22-24), on systems other than Windows. -/
def badPath (cfg : Config) (path : String) : Bool :=
  decide (cfg.format = .parsable) && (path.toList.contains ':' || path.toList.contains '\n')

/-- The analysis of a parsed file (processor.py:129-148). -/
def analyse (env : Env) (node : Node) : FileOut :=
  match tour env node S.init with
  | .error e => .error e
  | .ok s =>
    match minimumVersions env s with
    | .ok (s', mins) =>
      .ok (some
        { path := env.path, mins := some mins, text := outputText env s', novermin := env.noLines,
          bps := (s'.modules.filter isBackport).foldl addSet [], maybeAnnotations := s'.has .maybeAnnotations })
    | .error (.invalidVersion msg) =>
      .ok (some
        { path := env.path, mins := none, text := msg, novermin := env.noLines, bps := [], maybeAnnotations := false })
    | .error e => .error e

/-- `process_individual` (processor.py:100-148): what it prints itself and what it yields. -/
def processIndividual (cfg : Config) (h : Host) (path : String) (p : ParseOut) : List String × FileOut :=
  match p with
  | .notPython => ([], .ok none)
  | .failed text =>
    ([], .ok (some { path := path, mins := some Req.unknown, text := text, novermin := [], bps := [], maybeAnnotations := false }))
  | .syntaxError e =>
    let (out, mins) := detectSyntaxError cfg h.major e
    (out, .ok (some { path := path, mins := some mins, text := "", novermin := [], bps := [], maybeAnnotations := false }))
  | .ok node toks =>
    if badPath cfg path then ([], .error .assertion) else ([], analyse (Env.make cfg h path toks) node)

/-- The result of `visit` (detection.py:541-561): minimum versions, or the state of the visitor after
`minimum_versions`. -/
inductive Visited where
  | mins (r : Req)
  | visitor (env : Env) (s : S)

/-- `visit(source, config, path)` (detection.py:541-561) on source that parses or has a syntax error; `path` is
`"<unknown>"` if none is given. -/
def visitSource (cfg : Config) (h : Host) (path : String) (node : Node) (toks : List Tok) : Except Err Visited :=
  if badPath cfg path then .error .assertion
  else
    match tour (Env.make cfg h path toks) node S.init with
    | .error e => .error e
    | .ok s =>
      match minimumVersions (Env.make cfg h path toks) s with
      | .error e => .error e
      | .ok (s', _) => .ok (.visitor (Env.make cfg h path toks) s')

/-- `detect(source, config, path)` (detection.py:563-570): `minimum_versions` is computed a second time. -/
def detectSource (cfg : Config) (h : Host) (path : String) (node : Node) (toks : List Tok) : Except Err Req :=
  match visitSource cfg h path node toks with
  | .error e => .error e
  | .ok (.mins r) => .ok r
  | .ok (.visitor env s) =>
    match minimumVersions env s with
    | .ok (_, r) => .ok r
    | .error e => .error e

end Vermin
