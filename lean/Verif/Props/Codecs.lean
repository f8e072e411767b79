import Verif.Spec.Codecs
import Verif.Props.History
/-
C109: encodings and error handlers that are given to functions of `codecs` are noticed.
-/
namespace Vermin.Props
open Vermin Vermin.Py Vermin.Spec

/-! ### The tables of positions -/

theorem errorsIndices_nodup : (Data.codecsErrorsIndices.map Prod.fst).Nodup := by decide +kernel
theorem encodingsIndices_nodup : (Data.codecsEncodingsIndices.map Prod.fst).Nodup := by decide +kernel

theorem std_errorsIndex (c : Config) (f : String) : (Tables.std c).errorsIndex f = Dict.get? Data.codecsErrorsIndices f := by
  simp only [Tables.std, get?_dictDisplay_eq errorsIndices_nodup]
theorem std_encodingsIndices (c : Config) (f : String) : (Tables.std c).encodingsIndices f = Dict.get? Data.codecsEncodingsIndices f := by
  simp only [Tables.std, get?_dictDisplay_eq encodingsIndices_nodup]

theorem errors_right : (codecsParameters.all fun e => e.1 == "codecs.StreamRecoder" ||
    decide (Dict.get? Data.codecsErrorsIndices e.1 = if e.2.contains "errors" then some (e.2.idxOf "errors") else none)) = true := by decide +kernel
theorem encodings_right : (codecsParameters.all fun e => e.1 == "codecs.iterencode" || e.1 == "codecs.iterdecode" ||
    decide ((Dict.get? Data.codecsEncodingsIndices e.1).getD [] = (List.range e.2.length).filter fun i => match e.2[i]? with
      | some x => encodingParameters.contains x
      | none => false)) = true := by decide +kernel
theorem parameters_nodup : (codecsParameters.all fun e => decide e.2.Nodup) = true := by decide +kernel

/-- C109, what holds: the error handler is looked for where the parameter `errors` is. Missing: `StreamRecoder`, see `C109_false_recoder`. -/
theorem C109_errors_partial (c : Config) {f : String} {ps : List String} (hf : (f, ps) ∈ codecsParameters) (hr : f ≠ "codecs.StreamRecoder") (i : Nat) :
    (Tables.std c).errorsIndex f = some i ↔ ps[i]? = some "errors" := by
  have h := List.all_eq_true.mp errors_right _ hf
  have hn := of_decide_eq_true (List.all_eq_true.mp parameters_nodup _ hf)
  rw [Bool.or_eq_true] at h
  rcases h with h | h
  · exact absurd (beq_iff_eq.mp h) hr
  rw [std_errorsIndex, of_decide_eq_true h]
  dsimp only at hn ⊢
  by_cases hc : ps.contains "errors" = true
  · rw [if_pos hc]
    have hm := List.contains_iff_mem.mp hc
    have hl := List.idxOf_lt_length_iff.mpr hm
    have hi : ps[ps.idxOf "errors"]? = some "errors" := by rw [List.getElem?_eq_getElem hl, List.getElem_idxOf]
    constructor
    · intro e
      cases e
      exact hi
    · intro e
      obtain ⟨hl', e'⟩ := List.getElem?_eq_some_iff.mp e
      rw [← e', hn.idxOf_getElem]
  · rw [if_neg hc]
    refine ⟨nofun, fun e => absurd (List.contains_iff_mem.mpr (List.mem_of_getElem? e)) hc⟩

/-- C109, what holds: encodings are looked for where the parameters for them are. Missing: `iterencode` and `iterdecode`, see `C109_false_iterencode`. -/
theorem C109_encodings_partial (c : Config) {f : String} {ps : List String} (hf : (f, ps) ∈ codecsParameters) (h1 : f ≠ "codecs.iterencode")
    (h2 : f ≠ "codecs.iterdecode") (i : Nat) :
    (∃ is, (Tables.std c).encodingsIndices f = some is ∧ i ∈ is) ↔ ∃ x ∈ encodingParameters, ps[i]? = some x := by
  have h := List.all_eq_true.mp encodings_right _ hf
  rw [Bool.or_eq_true, Bool.or_eq_true] at h
  rcases h with (h | h) | h
  · exact absurd (beq_iff_eq.mp h) h1
  · exact absurd (beq_iff_eq.mp h) h2
  have h := of_decide_eq_true h
  dsimp only at h
  rw [std_encodingsIndices]
  have hg : (∃ is, Dict.get? Data.codecsEncodingsIndices f = some is ∧ i ∈ is) ↔ i ∈ (Dict.get? Data.codecsEncodingsIndices f).getD [] := by
    cases Dict.get? Data.codecsEncodingsIndices f with
    | none => simp
    | some is => simp
  rw [hg, h, List.mem_filter, List.mem_range]
  constructor
  · rintro ⟨hl, hx⟩
    rw [List.getElem?_eq_getElem hl] at hx ⊢
    exact ⟨_, List.contains_iff_mem.mp hx, rfl⟩
  · rintro ⟨x, hx, e⟩
    refine ⟨(List.getElem?_eq_some_iff.mp e).1, ?_⟩
    rw [e]
    exact List.contains_iff_mem.mpr hx

/-- **C109.** No other functions are taken for ones that are given encodings or error handlers, apart from a name that does not exist. -/
theorem C109_only (c : Config) {f : String} (hf : f ∉ codecsParameters.map (·.1)) (hr : f ≠ "codecs.StreamRecorder") :
    (Tables.std c).errorsIndex f = none ∧ (Tables.std c).encodingsIndices f = none := by
  have h1 : (Data.codecsErrorsIndices.all fun e => e.1 == "codecs.StreamRecorder" || (codecsParameters.map (·.1)).contains e.1) = true := by decide +kernel
  have h2 : (Data.codecsEncodingsIndices.all fun e => (codecsParameters.map (·.1)).contains e.1) = true := by decide +kernel
  rw [std_errorsIndex, std_encodingsIndices]
  constructor
  · cases hg : Dict.get? Data.codecsErrorsIndices f with
    | none => rfl
    | some i =>
      have := List.all_eq_true.mp h1 _ (Dict.mem_of_get? hg)
      rw [Bool.or_eq_true] at this
      rcases this with h | h
      · exact absurd (beq_iff_eq.mp h) hr
      · exact absurd (List.contains_iff_mem.mp h) hf
  · cases hg : Dict.get? Data.codecsEncodingsIndices f with
    | none => rfl
    | some i => exact absurd (List.contains_iff_mem.mp (List.all_eq_true.mp h2 _ (Dict.mem_of_get? hg))) hf

/-! ### Programs -/

theorem rules_handlers : (addedHandlers.all fun e => decide ((Tables.std (Config.init 1)).errorHandler e.1 = some ⟨none, some ⟨3, e.2⟩⟩)) = true := by decide +kernel
theorem rules_encodings : (addedEncodings.all fun e => Data.codecsEncodings.any fun k => (EncNames k.1).contains e.1 && decide (k.2 = ⟨none, some ⟨3, e.2⟩⟩)) = true := by
  decide +kernel

section
variable (c : Config) (h : Host) (path : String) (toks : List Tok) (p : Node) {m : Req}
  (hm : detectSource c h path p toks = .ok m) (hp : p.kind = .module) {l₁ l₂ : List Node} {k n : Node} (hk : p.kids = l₁ ++ k :: l₂)
  (hs : Seen (Env.make c h path toks) p n k) (hn : ¬ Marked (Env.make c h path toks) n)
  {f : Node} {g : String} {ps : List String} (hg : (g, ps) ∈ codecsParameters) (hc : n.kind = .call) (hf : n.field .func = some f)
  (hst : Stands (Env.make c h path toks) p l₁ f g)
include hm hp hk hs hn hg hc hf hst

/-- C109, what holds: a program that gives an error handler that came with Python 3.n to a function of `codecs` is said to run with Python 3.n and later only.
Missing: `StreamRecoder`. -/
theorem C109_handlers_partial (hr : g ≠ "codecs.StreamRecoder") {e : String} (hgiven : GivenFor n ps "errors" (.str e)) (hx : c.isExcludedErrorHandler e = false)
    {i : Nat} (hi : (e, i) ∈ addedHandlers) {v : Ver} (hv : Satisfies v m) : v.major = 3 ∧ ⟨3, i⟩ ≤ v := by
  obtain ⟨_, s, s', ht, hmin⟩ := (detect_ok_iff c h path p toks m).mp hm
  obtain ⟨j, hj, hgiven⟩ := hgiven
  have hj := (C109_errors_partial c hg hr j).mpr hj
  have hgives : Spec.Gives (Env.make c h path toks) p l₁ n (.errorHandler (.str e)) := by
    rcases hgiven with ⟨a, ha, hak⟩ | ⟨_, hkw⟩
    · exact .errorHandler hc hf hst hj ha hak hx
    · exact .errors hc hf hst hj hkw hx
  have hrule : (Tables.std c).errorHandler e = some ⟨none, some ⟨3, i⟩⟩ := of_decide_eq_true (List.all_eq_true.mp rules_handlers _ hi)
  rcases ((C32_satisfies hmin v).mp hv).2 _ (C71_required _ p k n l₁ l₂ _ _ s ht hp hk hs hn hgives (.errorHandler hrule)) with ⟨_, _, e, _⟩ | ⟨h3, w, e, hw⟩
  · cases e
  · cases e; exact ⟨h3, hw⟩

/-- C109, what holds: the same for encodings, in any case. Missing: `iterencode` and `iterdecode`. -/
theorem C109_encoded_partial (h1 : g ≠ "codecs.iterencode") (h2 : g ≠ "codecs.iterdecode") {x : String} (hpar : x ∈ encodingParameters) {e : String}
    (hgiven : GivenFor n ps x (.str e)) (hx : c.isExcludedEncoding e = false) {name : String} {i : Nat} (hi : (name, i) ∈ addedEncodings)
    (hname : lower e.toList = name.toList) {v : Ver} (hv : Satisfies v m) : v.major = 3 ∧ ⟨3, i⟩ ≤ v := by
  obtain ⟨_, s, s', ht, hmin⟩ := (detect_ok_iff c h path p toks m).mp hm
  obtain ⟨j, hj, hgiven⟩ := hgiven
  obtain ⟨is, his, hjs⟩ := (C109_encodings_partial c hg h1 h2 j).mpr ⟨x, hpar, hj⟩
  have hgives : Spec.Gives (Env.make c h path toks) p l₁ n (.encoding (.str e)) := by
    rcases hgiven with ⟨a, ha, hak⟩ | ⟨hl, kw, hkw, ⟨y, hy, hky⟩, hval⟩
    · exact .encoding hc hf hst his hjs ha hak hx
    · refine .encodingKeyword hc hf hst his hjs (fun a _ ha => ?_) ⟨kw, hkw, ⟨y, ?_, hky⟩, hval⟩ hx
      · exact absurd (List.getElem?_eq_some_iff.mp ha).1 (Nat.not_lt.mpr hl)
      · rw [List.mem_singleton.mp hy]; exact hpar
  obtain ⟨⟨key, r⟩, hkey, hb⟩ := List.any_eq_true.mp (List.all_eq_true.mp rules_encodings _ hi)
  rw [Bool.and_eq_true] at hb
  have hrr : r = ⟨none, some ⟨3, i⟩⟩ := of_decide_eq_true hb.2
  have hcon : EncKey.contains (lowerStr e) key = true := by
    have hin := List.contains_iff_mem.mp hb.1
    have : lowerStr e = name := by
      unfold lowerStr
      rw [hname, String.ofList_toList]
    rw [this]
    cases key with
    | names l => simpa [EncKey.contains, EncNames] using hin
    | text t =>
      simp only [EncNames, List.mem_singleton] at hin
      simp only [EncKey.contains, hin, isSub_self]
  rcases ((C32_satisfies hmin v).mp hv).2 _ (C71_required _ p k n l₁ l₂ _ _ s ht hp hk hs hn hgives (.encoding hkey hcon)) with ⟨_, _, e, _⟩ | ⟨h3, w, e, hw⟩
  · rw [hrr] at e; cases e
  · rw [hrr] at e; cases e; exact ⟨h3, hw⟩
end

/-! ### Other records (C108) -/

/-- Since when directives, typecodes and decorators without arguments are known: `%G`, `%V` and `%u` (3.6) and `%f` (2.6) of `strftime`, `%a` and `%b` of
bytes (PEP 461), arrays of `long long`, `@lru_cache` and `@cache`. -/
inductive KnownSince : Record → Req → Prop
  | week {d : String} : d ∈ ["G", "V", "u"] → KnownSince (.strftime d) ⟨none, some ⟨3, 6⟩⟩
  | micro : KnownSince (.strftime "f") ⟨some ⟨2, 6⟩, some ⟨3, 0⟩⟩
  | bytes {d : String} : d ∈ ["a", "b"] → KnownSince (.bytes d) ⟨none, some ⟨3, 5⟩⟩
  | longLong {t : String} : t ∈ ["q", "Q"] → KnownSince (.typecode t) ⟨none, some ⟨3, 3⟩⟩
  | lruCache : KnownSince (.decorator "functools.lru_cache") ⟨none, some ⟨3, 8⟩⟩
  | cache : KnownSince (.decorator "functools.cache") ⟨none, some ⟨3, 9⟩⟩

theorem known_ruled (c : Config) (h : Host) (path : String) (toks : List Tok) {r : Record} {q : Req} (hr : KnownSince r q) :
    RecordRule (Env.make c h path toks) r q := by
  have h1 : (["G", "V", "u"].all fun d => decide ((Tables.std (Config.init 1)).strftime d = some ⟨none, some ⟨3, 6⟩⟩)) = true := by decide +kernel
  have h2 : (Tables.std (Config.init 1)).strftime "f" = some ⟨some ⟨2, 6⟩, some ⟨3, 0⟩⟩ := by decide +kernel
  have h3 : (["a", "b"].all fun d => decide ((Tables.std (Config.init 1)).bytes d = some ⟨none, some ⟨3, 5⟩⟩)) = true := by decide +kernel
  have h4 : (["q", "Q"].all fun d => decide ((Tables.std (Config.init 1)).typecode d = some ⟨none, some ⟨3, 3⟩⟩)) = true := by decide +kernel
  have h5 : (Tables.std (Config.init 1)).deco "functools.lru_cache" = some ⟨none, some ⟨3, 8⟩⟩ := by decide +kernel
  have h6 : (Tables.std (Config.init 1)).deco "functools.cache" = some ⟨none, some ⟨3, 9⟩⟩ := by decide +kernel
  cases hr with
  | week hd => exact .strftime (of_decide_eq_true (List.all_eq_true.mp h1 _ hd))
  | micro => exact .strftime h2
  | bytes hd => exact .bytes (of_decide_eq_true (List.all_eq_true.mp h3 _ hd))
  | longLong hd => exact .typecode (of_decide_eq_true (List.all_eq_true.mp h4 _ hd))
  | lruCache => exact .decorator h5
  | cache => exact .decorator h6

/-- **C108.** A program with such a directive, typecode or decorator in a place that is looked at (`Spec.Gives`) is said to run only where it is known. -/
theorem C108_records (c : Config) (h : Host) (path : String) (toks : List Tok) (p : Node) {m : Req} (hm : detectSource c h path p toks = .ok m)
    (hp : p.kind = .module) {l₁ l₂ : List Node} {k n : Node} (hk : p.kids = l₁ ++ k :: l₂) (hs : Seen (Env.make c h path toks) p n k)
    (hn : ¬ Marked (Env.make c h path toks) n) {r : Record} (hg : Spec.Gives (Env.make c h path toks) p l₁ n r) {q : Req} (hr : KnownSince r q) {v : Ver}
    (hv : Satisfies v m) : Satisfies v q := by
  obtain ⟨_, s, s', ht, hmin⟩ := (detect_ok_iff c h path p toks m).mp hm
  exact ((C32_satisfies hmin v).mp hv).2 q (C71_required _ p k n l₁ l₂ r q s ht hp hk hs hn hg (known_ruled c h path toks hr))

/-! ### Examples -/

/-- `import codecs` and a call of its function `f` with the arguments -/
def codecsProg (f : String) (args : List Node) : Node := prog [nd .body .import 1 [nd .names (.alias "codecs" none) 1 []],
  st 2 (nd .value .call 2 (attr .func "codecs" f 2 :: args))]
/-- A string as an argument -/
def strArg (t : String) : Node := nd .args (.const (.str t)) 2 []
/-- A string as a keyword argument -/
def strKeyword (x t : String) : Node := nd .keywords (.keyword (some x)) 2 [nd .value (.const (.str t)) 2 []]

/-- What is required of a program, with the rules of the source -/
def requiredOf (p : Node) : Option Req := requiredIn (writtenEnv (Config.init 1) exampleHost "a.py" []) p

theorem encode_required : requiredOf (codecsProg "encode" [nm .args "x", strArg "KOI8_T"]) = some ⟨none, some ⟨3, 5⟩⟩ := by decide +kernel
theorem open_required : requiredOf (codecsProg "open" [nm .args "x", nm .args "y", nm .args "z", strArg "namereplace"]) = some ⟨none, some ⟨3, 5⟩⟩ := by decide +kernel
theorem errors_required : requiredOf (codecsProg "encode" [nm .args "x", strKeyword "errors" "surrogatepass"]) = some ⟨none, some ⟨3, 1⟩⟩ := by decide +kernel
theorem iterencode_required : requiredOf (codecsProg "iterencode" [nm .args "x", strArg "KOI8_T"]) = some ⟨some ⟨2, 5⟩, some ⟨3, 0⟩⟩ := by decide +kernel

/-- Examples: `codecs.encode(x, "KOI8_T")`, `codecs.open(x, y, z, "namereplace")` and `codecs.encode(x, errors="surrogatepass")`. -/
theorem C109_witness : requiredOf (codecsProg "encode" [nm .args "x", strArg "KOI8_T"]) = some ⟨none, some ⟨3, 5⟩⟩ ∧
    requiredOf (codecsProg "open" [nm .args "x", nm .args "y", nm .args "z", strArg "namereplace"]) = some ⟨none, some ⟨3, 5⟩⟩ ∧
    requiredOf (codecsProg "encode" [nm .args "x", strKeyword "errors" "surrogatepass"]) = some ⟨none, some ⟨3, 1⟩⟩ ∧
    (("codecs.encode", ["obj", "encoding", "errors"]) ∈ codecsParameters ∧ ("koi8_t", 5) ∈ addedEncodings ∧
      GivenFor (nd .value .call 2 (attr .func "codecs" "encode" 2 :: [nm .args "x", strArg "KOI8_T"])) ["obj", "encoding", "errors"] "encoding" (.str "KOI8_T") ∧
      lower "KOI8_T".toList = "koi8_t".toList) := by
  refine ⟨encode_required, open_required, errors_required, ?_, ?_, ⟨1, ?_, .inl ⟨strArg "KOI8_T", ?_, ?_⟩⟩, ?_⟩
  · decide +kernel
  · decide +kernel
  · rfl
  · rfl
  · rfl
  · decide +kernel

/-- Where C109 is false: `codecs.iterencode(x, "KOI8_T")` is said to run with Python 2.5 and 3.0, since the encoding is looked for behind the place where it is. -/
theorem C109_false_iterencode : requiredOf (codecsProg "iterencode" [nm .args "x", strArg "KOI8_T"]) = some ⟨some ⟨2, 5⟩, some ⟨3, 0⟩⟩ ∧
    (Tables.std (Config.init 1)).encodingsIndices "codecs.iterencode" = some [2] ∧
    (Tables.std (Config.init 1)).encodingsIndices "codecs.iterdecode" = some [2] := by
  exact ⟨iterencode_required, by decide +kernel, by decide +kernel⟩

/-- Where C109 is false: the rule for `StreamRecoder` misspells its name. -/
theorem C109_false_recoder (c : Config) : (Tables.std c).errorsIndex "codecs.StreamRecoder" = none ∧ (Tables.std c).errorsIndex "codecs.StreamRecorder" = some 5 := by
  rw [std_errorsIndex, std_errorsIndex]
  decide +kernel

end Vermin.Props
