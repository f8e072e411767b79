import Verif.Props.Program
import Verif.Props.Parsable
import Verif.Props.Reach
import Verif.Props.Finally
import Verif.Props.Settled
import Verif.Props.Records
import Verif.Props.Members
import Verif.Props.Places
/-
C83: from the sources to the exit code and back.  What the sources evidently need is satisfied by the targets if the run ends with 0, and every
requirement that keeps a target from being satisfied is due to a part of a source.
-/
namespace Vermin.Props
open Vermin Vermin.Py Vermin.Spec

/-- The source `p` evidently needs `r`: it has a part that is looked at and that is not on a marked line, of which nothing in the source leaves open what
it is.  For language features `r` is what the documentation of Python tells (`Introduced`), for all else what the rules state. -/
inductive Demands (env : Env) (p : Node) : Req → Prop
  /-- a construct of the language -/
  | construct {n : Node} {f : Flag} {r : Req} : Seen env p n p → ¬ Marked env n → f ∈ certain → Construct env f n → Introduced f = some r →
      f ≠ .format27 → Demands env p r
  /-- a construct that depends on names or on what is around it -/
  | settled {n k : Node} {l₁ l₂ : List Node} {f : Flag} {r : Req} : p.kids = l₁ ++ k :: l₂ → Seen env p n k → ¬ Marked env n →
      Settled env p l₁ n f → Introduced f = some r → Demands env p r
  /-- `continue` in `finally` -/
  | continueInFinally {t f c : Node} : Reach env t p → t.kind = .try → ¬ Marked env t → f ∈ t.fields .finalbody → ReachDirect env c f →
      c.kind = .continue → Demands env p ⟨none, some ⟨3, 8⟩⟩
  /-- a module -/
  | module {n k : Node} {l₁ l₂ : List Node} {x : String} {r : Req} : p.kids = l₁ ++ k :: l₂ → Seen env p n k → ¬ Marked env n →
      UsesModule env p l₁ n x → Undefined p x → env.cfg.isExcluded x = false → env.tables.mod x = some r → Demands env p r
  /-- a function, a class, a constant, .. of a module -/
  | member {n k : Node} {l₁ l₂ : List Node} {x : String} {r : Req} : p.kids = l₁ ++ k :: l₂ → Seen env p n k → ¬ Marked env n →
      Uses env p l₁ n x → Undefined p x → env.cfg.isExcluded x = false → env.tables.mem x = some r → Demands env p r
  /-- a keyword argument -/
  | keyword {n k e kw : Node} {l₁ l₂ : List Node} {a : Option String} {g : String} {r : Req} : p.kids = l₁ ++ k :: l₂ → Seen env p n k →
      ¬ Marked env n → Named n → Passes n e kw a → StandsFor env p l₁ e g → Undefined p g → g ++ "(" ++ a.getD "None" ++ ")" ∉ env.cfg.exclusions →
      env.tables.kw (g, a) = some r → Demands env p r
  /-- a directive, a typecode, an error handler, an encoding, or a decorator -/
  | record {n k : Node} {l₁ l₂ : List Node} {x : Record} {r : Req} : p.kids = l₁ ++ k :: l₂ → Seen env p n k → ¬ Marked env n →
      Spec.Gives env p l₁ n x → RecordRule env x r → Demands env p r

/-- The requirement of what is found at a node. -/
inductive Ruled (env : Env) : Event → Req → Prop
  | feature {f r} : Enforced f = some r → Ruled env (.flag f) r
  | strftime {d r} : env.tables.strftime d = some r → Ruled env (.strftime d) r
  | bytesDir {d r} : env.tables.bytes d = some r → Ruled env (.bytesDir d) r
  | typecode {d r} : env.tables.typecode d = some r → Ruled env (.typecode d) r
  | errorHandler {n r} : env.tables.errorHandler n = some r → Ruled env (.errorHandler (.str n)) r
  | encoding {n k r} : (k, r) ∈ env.tables.encodings → EncodedAs (lowerStr n) k → Ruled env (.encoding (.str n)) r
  | module {m r} : env.tables.mod m = some r → Ruled env (.module m) r
  | member {m r} : env.tables.mem m = some r → Ruled env (.member m) r
  | kwarg {g a r} : env.tables.kw (g, a) = some r → Ruled env (.kwarg g a) r
  | decorator {u r} : env.tables.deco u = some r → Ruled env (.deco u) r

variable {env : Env} {p : Node} {s : S}

theorem encodedAs_key {e : String} {k : EncKey} : EncKey.contains e k = true ↔ EncodedAs e k := by
  cases k with
  | names l => simp [EncKey.contains, EncodedAs]
  | text s => exact isSub_parts

/-- **C83 (one source).** What a source evidently needs is satisfied by every version that satisfies all that is found in it. -/
theorem C83_found (ho : SetOrder env) (hp : p.kind = .module) (h : tour env p S.init = .ok s) {r : Req} (hd : Demands env p r) {v : Ver}
    (hv : ∀ q, Requires env s q → Satisfies v q) : Satisfies v r := by
  have feat : ∀ {f : Flag} {r : Req}, s.has f = true → Introduced f = some r → f ≠ .format27 → Satisfies v r := fun hf hr hne => by
    obtain ⟨q, hq, hle⟩ := mem_features hr hne
    exact hle v (hv q (.feature hf hq))
  cases hd with
  | construct h1 h2 h3 h4 h5 h6 => exact feat (C30_reported_partial env p _ _ s h h1 h2 h3 h4) h5 h6
  | settled h1 h2 h3 h4 h5 =>
    refine feat (C70_reported env p _ _ _ _ _ s h hp h1 h2 h3 h4) h5 ?_
    rintro rfl
    cases h4
  | continueInFinally h1 h2 h3 h4 h5 h6 => exact feat (C42_complete_partial env p _ _ _ s h h1 h2 h3 h4 h5 h6) rfl (by decide)
  | module h1 h2 h3 h4 h5 h6 h7 => exact hv _ (C59_required ho h hp h1 h2 h3 h4 h5 h6 h7)
  | member h1 h2 h3 h4 h5 h6 h7 => exact hv _ (C60_required ho h hp h1 h2 h3 h4 h5 h6 h7)
  | keyword h1 h2 h3 h4 h5 h6 h7 h8 h9 => exact hv _ (.kwarg (C37_passed h hp h1 h2 h3 h4 h5 h6 h7 h8) h9)
  | record h1 h2 h3 h4 h5 => exact hv _ (C71_required env p _ _ _ _ _ _ s h hp h1 h2 h3 h4 h5)

/-- **C83 (one source).** Conversely, everything that is required is due to a part of the source that gives rise to it. -/
theorem C83_due (h : tour env p S.init = .ok s) {r : Req} (hr : Requires env s r) :
    ∃ ev m, Ruled env ev r ∧ In m p ∧ EmitsIn env (Learnt env p m) m ev := by
  have hb : ∀ {ev}, Ruled env ev r → Backs env p .start p ev → ∃ ev m, Ruled env ev r ∧ In m p ∧ EmitsIn env (Learnt env p m) m ev := fun h1 h2 => by
    obtain ⟨m, -, h3, h4⟩ := backs_found h2
    exact ⟨_, m, h1, h3, h4⟩
  have hf : ∀ {ev}, Ruled env ev r → FoundIn env p ev → ∃ ev m, Ruled env ev r ∧ In m p ∧ EmitsIn env (Learnt env p m) m ev := fun h1 h2 => by
    obtain ⟨m, h3, h4⟩ := h2
    exact ⟨_, m, h1, h3, h4⟩
  have he := C72_placed env p s h
  have ht := C29_traced env p s h
  have hd := C71_directives env p s h
  cases hr with
  | feature h1 h2 => exact hb (.feature h2) (he.flags _ (List.contains_iff_mem.mp h1))
  | strftime h1 h2 =>
    obtain ⟨n, f, a, t, d, h3, h4, h5, h6, h7, h8, h9, h10⟩ := hd.1 _ h1
    exact ⟨_, n, .strftime h2, h3, f, a, t, h4, h5, h6, h7, h8, d, h9, h10⟩
  | bytesDir h1 h2 =>
    obtain ⟨n, t, d, h3, h4, h5, h6⟩ := hd.2 _ h1
    exact ⟨_, n, .bytesDir h2, h3, t, h4, d, h5, h6⟩
  | typecode h1 h2 => exact hf (.typecode h2) (ht.typecodes _ h1)
  | errorHandler h1 h2 => exact hf (.errorHandler h2) (ht.codecsErr _ h1)
  | encoding h1 h2 h3 => exact hf (.encoding h2 (encodedAs_key.mp h3)) (ht.codecsEnc _ h1)
  | module h1 h2 => exact hb (.module h2) (he.modules _ h1)
  | member h1 h2 => exact hb (.member h2) (he.members _ h1)
  | kwarg h1 h2 => exact hb (.kwarg h2) (he.kwargs _ h1)
  | decorator h1 h2 => exact hb (.decorator h2) (he.decos _ h1)

/-! ### Runs of the program -/

/-- The environment in which the source of a file is looked at. -/
def analysisEnv (w : World) (p : Vermin.Parsed) (q : List Char) (toks : List Tok) : Env := Env.make (localConfig p.cfg) (w.host q) (String.ofList q) toks

theorem source_visited {w : World} (hw : Surroundings w) {argv : List String} {p : Vermin.Parsed}
    (hargs : parseArgs w.args argv (Config.init w.args.cpus) = .ok p) {q : List Char}
    (hfile : Analysable (localConfig p.cfg) (w.host q) (String.ofList q) (w.parse q)) {node : Node} {toks : List Tok}
    (hn : w.parse q = .ok node toks) : ∃ s, tour (analysisEnv w p q toks) node S.init = .ok s := by
  obtain ⟨h1, h2, -⟩ := hfile node toks hn
  refine C36_visit (analysisEnv w p q toks) node h1 h2 ?_ S.init
  intro hv
  have hv' : p.cfg.onlyShowViolations = true := by rw [← (localConfig_same p.cfg).2.1]; exact hv
  show (localConfig p.cfg).targets ≠ []
  rw [show (localConfig p.cfg).targets = p.cfg.targets by unfold localConfig; split <;> rfl]
  exact parsed_targets hw.paths hargs hv'

/-- A file needs `r`: because of a part of its source, or because it is not valid for the interpreter. -/
inductive Reason (w : World) (p : Vermin.Parsed) (q : List Char) (r : Req) : Prop
  | part {node m : Node} {toks : List Tok} {ev : Event} : w.parse q = .ok node toks → In m node → Ruled (analysisEnv w p q toks) ev r →
      EmitsIn (analysisEnv w p q toks) (Learnt (analysisEnv w p q toks) node m) m ev → Reason w p q r
  | invalid {e : SynErr} : w.parse q = .syntaxError e → (detectSyntaxError (localConfig p.cfg) (w.host q).major e).2 = r → Reason w p q r

/-- **C83.** All that an analysed file requires has a reason in the file. -/
theorem C83_reason {w : World} {p : Vermin.Parsed} {q : List Char} {r : Req} (h : FileReq w (localConfig p.cfg) q r) : Reason w p q r := by
  cases h with
  | finding h1 h2 h3 =>
    obtain ⟨ev, m, h4, h5, h6⟩ := C83_due h2 h3
    exact .part h1 h5 h4 h6
  | syntaxError h1 => exact .invalid h1 rfl

/-- **C83.** If an orderly run ends with exit code 0, every target satisfies all that the sources of the analysed files evidently need. -/
theorem C83_certified {w : World} (hw : Surroundings w) (hso : SetOrders w) {argv : List String} {p : Vermin.Parsed} (ho : Orderly w argv p)
    (ht : OnePerMajor p.cfg.targets) (hps : ¬ (p.cfg.pessimistic = true ∧ p.cfg.onlyShowViolations = true))
    {files : List (List String)} {out : List String} (h : program w argv = .exit files out 0)
    {q : List Char} (hq : AnalysedPath w p q) {node : Node} {toks : List Tok} (hn : w.parse q = .ok node toks) (hm : node.kind = .module)
    {r : Req} (hd : Demands (analysisEnv w p q toks) node r) : ∀ t ∈ p.cfg.targets, Satisfies t.2 r := fun t htt => by
  obtain ⟨s, hs⟩ := source_visited hw ho.args (ho.files q hq) hn
  exact C83_found (show SetOrder (analysisEnv w p q toks) from hso q) hm hs hd fun x hx => C66_certified hw ho ht hps h t htt q hq x (.finding hn hs hx)

/-- **C83.** If the files of a run can be analysed, be they compatible or not, and it ends with exit code 0 and is not quiet, then every target satisfies all
that the source of a file evidently needs, unless the file is named as having incompatible versions. -/
theorem C83_certified_or_named {w : World} (hw : Surroundings w) (hso : SetOrders w) {argv : List String} {p : Vermin.Parsed}
    (hargs : parseArgs w.args argv (Config.init w.args.cpus) = .ok p)
    (hfiles : ∀ q, AnalysedPath w p q → Analysable (localConfig p.cfg) (w.host q) (String.ofList q) (w.parse q))
    (ht : OnePerMajor p.cfg.targets) (hps : ¬ (p.cfg.pessimistic = true ∧ p.cfg.onlyShowViolations = true)) (hqu : p.cfg.quiet = false)
    {files : List (List String)} {out : List String} (h : program w argv = .exit files out 0)
    {q : List Char} (hq : AnalysedPath w p q) {node : Node} {toks : List Tok} (hn : w.parse q = .ok node toks) (hm : node.kind = .module) :
    (∀ r, Demands (analysisEnv w p q toks) node r → ∀ t ∈ p.cfg.targets, Satisfies t.2 r) ∨
      ∃ text, ("File with incompatible versions: " ++ String.ofList q ++ text ++ "\n") ∈ out := by
  obtain ⟨s, hs⟩ := source_visited hw hargs (hfiles q hq) hn
  refine (C66_certified_or_named hw hargs hfiles ht hps hqu h q hq).imp (fun hc r hd t htt => ?_) id
  exact C83_found (show SetOrder (analysisEnv w p q toks) from hso q) hm hs hd fun x hx => hc t htt x (.finding hn hs hx)

/-- **C83.** The report of an orderly run is that of a combined result of which every version that satisfies it satisfies all that the sources of the analysed
files evidently need, and of which every part other than "not known" is that of a requirement with a reason in some file. -/
theorem C83_reported {w : World} (hw : Surroundings w) (hso : SetOrders w) {argv : List String} {p : Vermin.Parsed} (ho : Orderly w argv p)
    {files : List (List String)} {out : List String} {code : Nat} (h : program w argv = .exit files out code) (hne : ∃ q, AnalysedPath w p q) :
    ∃ pre rep acc, out = pre ++ rep ∧ (∀ line, line ≠ "\n" → (line ∈ rep ↔ ReportLine p.cfg p.versions acc line)) ∧
      (∀ q node toks r v, AnalysedPath w p q → w.parse q = .ok node toks → node.kind = .module → Demands (analysisEnv w p q toks) node r →
        Satisfies v acc.mins → Satisfies v r) ∧
      (acc.mins.py2 ≠ some ⟨0, 0⟩ → ∃ q r, AnalysedPath w p q ∧ Reason w p q r ∧ r.py2 = acc.mins.py2) ∧
      (acc.mins.py3 ≠ some ⟨0, 0⟩ → ∃ q r, AnalysedPath w p q ∧ Reason w p q r ∧ r.py3 = acc.mins.py3) := by
  obtain ⟨pre, rep, acc, h1, h2, h3⟩ := C66_report hw ho h hne
  refine ⟨pre, rep, acc, h1, h3, fun q node toks r v hq hn hm hd hv => ?_, fun hz => ?_, fun hz => ?_⟩
  · obtain ⟨s, hs⟩ := source_visited hw ho.args (ho.files q hq) hn
    exact C83_found (show SetOrder (analysisEnv w p q toks) from hso q) hm hs hd
      fun x hx => ((h2.satisfies v).mp hv).2 x ⟨q, hq, .finding hn hs hx⟩
  · cases hx : acc.mins.py2 with
    | none =>
      obtain ⟨r, ⟨q, hq, hr⟩, hr2⟩ := h2.none2.mp hx
      exact ⟨q, r, hq, C83_reason hr, hr2⟩
    | some v =>
      rcases (h2.max2 v hx).1 with rfl | ⟨r, ⟨q, hq, hr⟩, hr2⟩
      · exact absurd hx hz
      · exact ⟨q, r, hq, C83_reason hr, hr2⟩
  · cases hx : acc.mins.py3 with
    | none =>
      obtain ⟨r, ⟨q, hq, hr⟩, hr2⟩ := h2.none3.mp hx
      exact ⟨q, r, hq, C83_reason hr, hr2⟩
    | some v =>
      rcases (h2.max3 v hx).1 with rfl | ⟨r, ⟨q, hq, hr⟩, hr2⟩
      · exact absurd hx hz
      · exact ⟨q, r, hq, C83_reason hr, hr2⟩

/-- **C83.** If an orderly run that found files ends with another exit code, then there is a target that does not satisfy something that one of the files needs
for a reason, or for whose major version no file needs a version (or, if it is meant exactly, that version). -/
theorem C83_blamed {w : World} (hw : Surroundings w) {argv : List String} {p : Vermin.Parsed} (ho : Orderly w argv p)
    (ht : OnePerMajor p.cfg.targets) (hps : ¬ (p.cfg.pessimistic = true ∧ p.cfg.onlyShowViolations = true))
    {files : List (List String)} {out : List String} {code : Nat} (h : program w argv = .exit files out code) (hc : code ≠ 0)
    (hne : ∃ q, AnalysedPath w p q) :
    ∃ t ∈ p.cfg.targets, (∃ q r, AnalysedPath w p q ∧ Reason w p q r ∧ ¬ Satisfies t.2 r) ∨
      ∀ q r v, AnalysedPath w p q → FileReq w (localConfig p.cfg) q r → part t.2.major r = some v → v = ⟨0, 0⟩ ∨ (t.1 = true ∧ v ≠ t.2) := by
  have h1 := fun hx => hc ((C66_exit hw ho ht hps h).2.mpr hx)
  have h2 : ¬ ∀ t ∈ p.cfg.targets, TargetMet (Required w p) t := fun h3 => h1 ⟨hne, .inr h3⟩
  apply Classical.byContradiction
  intro hno
  refine h2 fun t htt => ⟨?_, ?_⟩
  · rintro r ⟨q, hq, hr⟩
    apply Classical.byContradiction
    exact fun hs => hno ⟨t, htt, .inl ⟨q, r, hq, C83_reason hr, hs⟩⟩
  · apply Classical.byContradiction
    intro hex
    refine hno ⟨t, htt, .inr fun q r v hq hr hv => ?_⟩
    by_cases hz : v = ⟨0, 0⟩
    · exact .inl hz
    · refine .inr (Classical.byContradiction fun hx => hex ⟨r, v, ⟨q, hq, hr⟩, hv, hz, fun h1 => ?_⟩)
      exact Classical.byContradiction fun h2 => hx ⟨h1, h2⟩

/-- Example: a run over a file with a `nonlocal` statement, which needs 3.0, ends with 0 for the target 3.0 and above. -/
theorem C83_witness : Surroundings exampleWorld ∧ SetOrders exampleWorld ∧ Orderly exampleWorld ["-t=3.0-", "a.py"] exampleParsed ∧
    OnePerMajor exampleParsed.cfg.targets ∧ exampleParsed.cfg.pessimistic = false ∧
    (∃ files out, program exampleWorld ["-t=3.0-", "a.py"] = .exit files out 0) ∧
    ∃ q, AnalysedPath exampleWorld exampleParsed q ∧ exampleWorld.parse q = .ok nonlocalProg [] ∧ nonlocalProg.kind = .module ∧
      Demands (analysisEnv exampleWorld exampleParsed q []) nonlocalProg ⟨none, some ⟨3, 0⟩⟩ := by
  obtain ⟨h1, h2, h3, h4, h5, q, hq, -⟩ := C66_witness
  refine ⟨h1, fun q l => List.Perm.refl l, h2, h3, h4, h5, q, hq, rfl, rfl, ?_⟩
  refine .construct (n := nd .body .nonlocal 1 []) (f := .nonlocalStmt) (.kid ⟨List.mem_cons_self, ?_, ?_, ?_⟩ (.self _)) ?_ (by decide) rfl rfl (by decide)
  · exact fun h => h.1
  · exact fun h => h
  · rintro ⟨-, h⟩
    rcases h with h | ⟨-, h⟩ <;> cases h
  · exact fun h => nomatch (show (1 : Nat) ∈ ([] : List Nat) from h.2)

end Vermin.Props
