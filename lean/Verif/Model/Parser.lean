import Verif.Model.Formats
import Verif.Model.Utility
/-
Models vermin/parser.py.  `ast.parse` and `tokenize.generate_tokens` belong to Python: their results are inputs here.
-/
namespace Vermin
open Py

/-- The token types `comments` distinguishes. -/
inductive TokType where
  | string | comment | newline | nl | other
  deriving DecidableEq, Repr

/-- A token of `tokenize.generate_tokens`. -/
structure Tok where
  type : TokType
  text : List Char
  /-- `start[0]` -/
  line : Nat
  /-- `start[1]` -/
  col : Nat
  /-- `end[0]` -/
  endLine : Nat
  deriving DecidableEq, Repr

/-- The variables of the loop of `comments` (parser.py:45-46) and the marked lines. -/
structure CommentState where
  prevNewline : Bool
  multiline : Option (Nat × Nat)
  marked : List Nat
  deriving DecidableEq, Repr

/-- Whether a segment of a comment is a mark (parser.py:39). -/
def isMark (segment : List Char) : Bool :=
  startsWith "novermin".toList segment || startsWith "novm".toList segment

/-- Whether some segment of a comment token is a mark (parser.py:65-66); `any` stops at the first. -/
def hasMark (comment : List Char) : Bool :=
  (splitOn (· == '#') (strip (comment.drop 1))).any fun seg => isMark (strip seg)

/-- Whether a string token is a triple-quoted one without prefix (parser.py:50-53). -/
def isTripleQuoted (text : List Char) : Bool :=
  let s := strip text
  (startsWith ['"', '"', '"'] s && endsWith ['"', '"', '"'] s) || (startsWith ['\'', '\'', '\''] s && endsWith ['\'', '\'', '\''] s)

/-- `novermin.add(line)` -/
def addLine (l : List Nat) (n : Nat) : List Nat := if l.contains n then l else l ++ [n]

/-- The line a comment belongs to (parser.py:57-58). -/
def commentLine (m : Option (Nat × Nat)) (line : Nat) : Nat :=
  match m with
  | some (first, last) => if last = line then first else line
  | none => line

/-- The body of the loop of `comments` (parser.py:47-68). -/
def commentStep (st : CommentState) (t : Tok) : CommentState :=
  let prevNewline := decide (t.type = .newline) || decide (t.type = .nl)
  match t.type with
  | .string =>
    { st with prevNewline := prevNewline, multiline := if isTripleQuoted t.text then some (t.line, t.endLine) else st.multiline }
  | .comment =>
    let lno := commentLine st.multiline t.line
    let alone := st.prevNewline || decide (t.col = 0)
    { prevNewline := prevNewline, multiline := none,
      marked := if hasMark t.text then addLine st.marked (if alone then lno + 1 else lno) else st.marked }
  | _ => { st with prevNewline := prevNewline }

/-- `comments()` (parser.py:26-69) over the tokens of the source. -/
def comments (toks : List Tok) : List Nat := (toks.foldl commentStep ⟨false, none, []⟩).marked

/-- What is used of a `SyntaxError`: `text`, `msg`, and `filename:lineno:offset`. -/
structure SynErr where
  text : Option String
  msg : String
  loc : String
  deriving DecidableEq, Repr

/-- `\s+` and one more character (the end of the regular expression). -/
def spaceThenAny : List Char → Bool
  | [] => false
  | c :: cs => c != '\n' || (isSpace c && spaceThenAny cs)

/-- `=\s+(.+)` -/
def aliasTail : List Char → Bool
  | '=' :: c :: cs => isSpace c && spaceThenAny cs
  | _ => false

/-- `\s+=\s+(.+)` -/
def aliasSpaceTail : List Char → Bool
  | c :: cs => isSpace c && aliasTail (cs.dropWhile isSpace)
  | [] => false

/-- `.*?\]\s+=\s+(.+)` -/
def aliasParams : List Char → Bool
  | [] => false
  | c :: cs => (c == ']' && aliasSpaceTail cs) || (c != '\n' && aliasParams cs)

/-- `(\[.+?\]\s+)?=\s+(.+)` -/
def aliasRest : List Char → Bool
  | '[' :: c :: cs => c != '\n' && aliasParams cs
  | s => aliasTail s

/-- `TYPE_ALIAS_STMT.match(text)` (parser.py:11): `type\s+(\w+)\s+(\[.+?\]\s+)?=\s+(.+)` -/
def isTypeAliasText (s : List Char) : Bool :=
  startsWith "type".toList s &&
  (match s.drop 4 with
    | c :: cs =>
      isSpace c &&
      (match (cs.dropWhile isSpace) with
        | w :: ws =>
          isWord w &&
          (match ws.dropWhile isWord with
            | c :: cs => isSpace c && aliasRest (cs.dropWhile isSpace)
            | [] => false)
        | [] => false)
    | [] => false)

/-- `vvprint` (printing.py:12-13): what is printed. -/
def vvprintMsg (cfg : Config) (msg : String) : List String := if cfg.verbose ≥ 2 ∧ ¬ cfg.quiet then [msg ++ "\n"] else []

/-- The text of the error as printed (parser.py:78-82). -/
def synText (cfg : Config) (e : SynErr) : List Char :=
  let t := match e.text with
    | some t => strip t.toList
    | none => []
  if cfg.format = .parsable then replaceChar '\n' ['\\', 'n'] t else t

/-- `a if parsable else ""` -/
def ifParsable (cfg : Config) (t : String) : String := if cfg.format = .parsable then t else ""

/-- `min_versions` (parser.py:100-102); `major` is the major version of the running interpreter. -/
def synMins (cfg : Config) (major : Nat) : Req :=
  if cfg.pessimistic then (if major = 2 then ⟨none, some Ver.zero⟩ else ⟨some Ver.zero, none⟩) else Req.unknown

/-- The handler of `SyntaxError` in `detect` (parser.py:77-106): what is printed and the minimum versions. -/
def detectSyntaxError (cfg : Config) (major : Nat) (e : SynErr) : List String × Req :=
  let text := synText cfg e
  let lmsg := lower e.msg.toList
  if isSub "missing parentheses in call to 'print'".toList lmsg then
    (vvprintMsg cfg (e.loc ++ ":" ++ ifParsable cfg "2.0:!3:" ++ "info: `" ++ String.ofList text ++ "` requires 2.0"),
     ⟨some ⟨2, 0⟩, none⟩)
  else if lmsg = "invalid syntax".toList ∧ isTypeAliasText text then
    (vvprintMsg cfg (e.loc ++ ":" ++ ifParsable cfg "!2:3.12:" ++ "info: type alias statement `" ++ String.ofList text ++
      "` requires !2, 3.12"), ⟨none, some ⟨3, 12⟩⟩)
  else
    (vvprintMsg cfg (e.loc ++ ":" ++ ifParsable cfg (reqString (synMins cfg major) ":" ++ ":") ++ "error: " ++ e.msg ++ ": " ++
      String.ofList text), synMins cfg major)

end Vermin
