import Verif.Lemmas.Step
import Verif.Props.Minimum
import Verif.Props.Config
/-
The traversal: balance (C25), accumulation (C26), exclusions (C28) and language features (C29).
-/
namespace Vermin.Props
open Vermin Vermin.Py Vermin.Spec Vermin.V

/-! ### Trees for the examples -/

/-- A node in a field, on a line. -/
def nd (f : Fld) (k : Kind) (line : Nat) (ks : List Node) : Node := .mk ⟨f, k, some line, 0, 0⟩ ks
/-- A name in a field -/
def nm (f : Fld) (x : String) (line : Nat := 1) : Node := nd f (.name x .load) line []
/-- An expression statement -/
def st (line : Nat) (e : Node) : Node := nd .body .expr line [e]
/-- A module -/
def prog (ks : List Node) : Node := .mk ⟨.body, .module, none, 0, 0⟩ ks
/-- The findings of a program -/
def result (env : Env) (n : Node) : Except Err S := tour env n S.init

/-! ### C25: balance -/

/-- **C25.** A visit leaves the depth, the loop counters and the `finally` contexts as they were. -/
theorem C25_balanced (env : Env) (n : Node) (s t : S) (h : visit env n s = .ok t) :
    t.depth = s.depth ∧ t.seenFor = s.seenFor ∧ t.seenWhile = s.seenWhile ∧ t.tryFinally = s.tryFinally :=
  have h := visit_steps env n s t h
  ⟨h.depth, h.seenFor, h.seenWhile, h.tryFinally⟩

/-- An action that leaves the definitions alone. -/
def KeepsDefs (v : V) : Prop := ∀ s t, v s = .ok t → t.userDefs = s.userDefs
namespace KeepsDefs
theorem skip : KeepsDefs skip := fun s t h => by injection h with h; rw [h]
theorem seq {a b : V} (ha : KeepsDefs a) (hb : KeepsDefs b) : KeepsDefs (a ;; b) := fun s t h => by
  obtain ⟨u, h1, h2⟩ := seq_run h
  rw [hb u t h2, ha s u h1]
theorem rd {f : S → V} (hf : ∀ s, KeepsDefs (f s)) : KeepsDefs (rd f) := fun s t h => hf s s t h
theorem when {c : Bool} {a : V} (ha : KeepsDefs a) : KeepsDefs (when c a) := by
  cases c with
  | true => exact ha
  | false => exact skip
theorem alt {c : Bool} {a b : V} (ha : KeepsDefs a) (hb : KeepsDefs b) : KeepsDefs (alt c a b) := by
  cases c with
  | true => exact ha
  | false => exact hb
theorem ite {c : Prop} [Decidable c] {a b : V} (ha : KeepsDefs a) (hb : KeepsDefs b) : KeepsDefs (if c then a else b) := by
  split
  · exact ha
  · exact hb
theorem opt {α : Type} {x : Option α} {a : V} {k : α → V} (ha : KeepsDefs a) (hk : ∀ v, KeepsDefs (k v)) : KeepsDefs (opt x a k) := by
  cases x with
  | none => exact ha
  | some v => exact hk v
theorem lift {α : Type} {x : Except Err α} {k : α → V} (hk : ∀ v, KeepsDefs (k v)) : KeepsDefs (lift x k) := by
  cases x with
  | ok v => exact hk v
  | error e => exact fun s t h => by cases h
theorem each {α : Type} {f : α → V} (hf : ∀ x, KeepsDefs (f x)) : ∀ l : List α, KeepsDefs (each f l)
  | [] => skip
  | x :: l => (hf x).seq (each hf l)
theorem print {env : Env} {l msg ent line vs pl} : KeepsDefs (verbosePrint env l msg ent line vs pl) := fun s t h => by
  obtain ⟨o, rfl⟩ := verbosePrint_run h
  rfl
theorem found {env : Env} {f : Flag} {msg vs line pl} : KeepsDefs (found env f msg vs line pl) :=
  seq (fun s t h => by rw [upd_run h]; rfl) print
theorem upd {f : S → S} (hf : ∀ s, (f s).userDefs = s.userDefs) : KeepsDefs (upd f) := fun s t h => by rw [upd_run h, hf]
theorem inScope (v : V) : KeepsDefs (inScope v) := fun s t h => by
  obtain ⟨u, _, h2⟩ := seq_run (show (v ;; restoreDefs s.userDefs) s = .ok t from h)
  rw [upd_run h2]
theorem gate {env : Env} {n : Node} {v : V} (h : KeepsDefs v) : KeepsDefs (gate env n v) := by
  unfold Vermin.gate
  exact ite skip h
theorem relaxed (env : Env) (n : Node) : KeepsDefs (checkRelaxed env n) := each (fun _ => gate (when found)) _
theorem userDecos (env : Env) (n : Node) : KeepsDefs (checkUserFuncDecos env n) := by
  refine each (fun _ => gate (rd fun _ => lift fun _ => opt skip fun _ => rd fun _ => ite print (ite print (when (upd fun s => ?_))))) _
  generalize hu : (_ : S).addLineCol _ _ _ = u
  obtain ⟨d, hd⟩ := addLineCol_with _ _ _ _
  rw [hd] at hu
  rw [← hu]
theorem funcDecos (env : Env) (n : Node) : KeepsDefs (funcDecos env n) :=
  opt skip fun _ => seq (seq found (relaxed env n)) (userDecos env n)
theorem dirFuncs (env : Env) (n : Node) (name : String) : KeepsDefs (dirFuncs env n name) :=
  opt skip fun _ => rd fun _ => when (ite found (when found))
theorem argAnns (env : Env) (n : Node) : ∀ l, KeepsDefs (argAnns env n l)
  | [] => skip
  | _ :: l => opt (argAnns env n l) fun _ => seq found (rd fun _ => lift fun _ => alt (alt found (upd fun _ => rfl)) (argAnns env n l))
theorem funcAnns (env : Env) (n : Node) : KeepsDefs (funcAnns env n) := alt found (argAnns env n _)
theorem handleFor (env : Env) (n : Node) (cs : List Child) : KeepsDefs (handleFor env n cs) :=
  gate (seq (upd fun _ => rfl) (inScope _))
end KeepsDefs

/-- The statements and expressions with a scope of their own. -/
def Scope : Kind → Prop
  | .lambda | .listComp | .generatorExp | .setComp | .dictComp | .exceptHandler _ | .with | .asyncWith | .for | .asyncFor => True
  | _ => False

theorem visit_mk (env : Env) (n : Node) : visit env n = visitAlg env n (visitKids env n.kids) := by
  cases n with
  | mk i ks => unfold visit visitNode; rfl
theorem genericVisit_mk (env : Env) (n : Node) : genericVisit env n = gen env n (visitKids env n.kids) := by
  cases n with
  | mk i ks => unfold genericVisit visitNode; rfl

/-- **C25.** Names introduced within lambdas, comprehensions, handlers, `with` and `for` statements are forgotten. -/
theorem C25_scopes (env : Env) (n : Node) (s t : S) (hn : Scope n.kind) (h : visit env n s = .ok t) : t.userDefs = s.userDefs := by
  rw [visit_mk] at h
  unfold visitAlg at h
  revert h
  cases hk : n.kind with
  | lambda => exact fun h => KeepsDefs.inScope _ s t h
  | listComp => exact fun h => KeepsDefs.inScope _ s t h
  | generatorExp => exact fun h => KeepsDefs.inScope _ s t h
  | setComp => exact fun h => KeepsDefs.seq .found (.inScope _) s t h
  | dictComp => exact fun h => KeepsDefs.seq .found (.inScope _) s t h
  | exceptHandler name => exact fun h => KeepsDefs.gate (.seq (.when .found) (.inScope _)) s t h
  | «with» => exact fun h => KeepsDefs.gate (.seq .found (.inScope _)) s t h
  | asyncWith => exact fun h => KeepsDefs.gate (.seq .found (.inScope _)) s t h
  | «for» => exact fun h => KeepsDefs.handleFor env n _ s t h
  | asyncFor => exact fun h => KeepsDefs.gate (.seq .found (.handleFor env n _)) s t h
  | _ => rw [hk] at hn; exact hn.elim

/-- **C25.** Of a function definition only the name of the function is kept. -/
theorem C25_function (env : Env) (n : Node) (name : String) (s t : S) (hn : n.kind = .functionDef name ∨ n.kind = .asyncFunctionDef name)
    (h : visit env n s = .ok t) (x : String) : x ∈ t.userDefs ↔ x ∈ s.userDefs ∨ (n.line ∉ env.noLines ∧ x = name) := by
  have hh : ∀ {cs : List Child} {s t : S}, handleFunctionDef env n name cs s = .ok t → t.userDefs = addSet s.userDefs name := by
    intro cs s t h
    obtain ⟨s4, h, h5⟩ := seq_run h
    obtain ⟨s3, h, h4⟩ := seq_run h
    obtain ⟨s2, h, h3⟩ := seq_run h
    obtain ⟨s1, h1, h2⟩ := seq_run h
    rw [KeepsDefs.funcAnns env n _ _ h5, KeepsDefs.inScope _ _ _ h4, KeepsDefs.funcDecos env n _ _ h3, KeepsDefs.dirFuncs env n name _ _ h2, upd_run h1]
  have key : t.userDefs = if env.isNoLine n.line then s.userDefs else addSet s.userDefs name := by
    rw [visit_mk] at h
    unfold visitAlg at h
    rcases hn with hn | hn
    · simp only [hn] at h
      unfold visitFunctionDef gate at h
      split at h
      · rename_i hx; rw [if_pos hx]; injection h with h; rw [h]
      · rename_i hx
        rw [if_neg hx]
        obtain ⟨u, h1, h2⟩ := seq_run (show (handleFunctionDef env n name _ ;; upd fun s' => { s' with seenYield := s.seenYield }) s = .ok t from h)
        rw [upd_run h2]
        show u.userDefs = _
        exact hh h1
    · simp only [hn] at h
      unfold visitAsyncFunctionDef gate at h
      split at h
      · rename_i hx; rw [if_pos hx]; injection h with h; rw [h]
      · rename_i hx
        rw [if_neg hx]
        obtain ⟨u, h1, h2⟩ := seq_run (show (handleFunctionDef env n name _ ;; found env .coroutines "coroutines (async)" (from3 5) (.at n.line) (some true) ;;
          (rd fun s' => when (decide (s.seenYield < s'.seenYield) && decide (s.seenAwait < s'.seenAwait))
            (found env .asyncGenerator "async generators (await and yield in same func)" (from3 6) (.at n.line) (some true))) ;;
          upd fun s' => { s' with seenAwait := s.seenAwait, seenYield := s.seenYield }) s = .ok t from h)
        obtain ⟨v, h1, h3⟩ := seq_run h1
        obtain ⟨w, h1, h4⟩ := seq_run h1
        rw [upd_run h2]
        show u.userDefs = _
        rw [(KeepsDefs.rd fun s' => KeepsDefs.when .found) v u h3, KeepsDefs.found w v h4]
        exact hh h1
  rw [key]
  by_cases hx : env.isNoLine n.line = true
  · rw [if_pos hx]
    have : n.line ∈ env.noLines := by simpa [Env.isNoLine] using hx
    exact ⟨.inl, fun h => h.elim id fun h => absurd this h.1⟩
  · rw [if_neg hx, mem_addSet]
    have : n.line ∉ env.noLines := by simpa [Env.isNoLine] using hx
    exact ⟨fun h => h.elim (fun h => .inr ⟨this, h⟩) .inl, fun h => h.elim .inr fun h => .inl h.2⟩

/-- Example: a function with a loop, a lambda and `finally`, within a loop. -/
def nested : Node := nd .body .for 1 [nm .target "i", nm .iter "xs",
  nd .body (.functionDef "f") 2 [nd .args .arguments 2 [nd .args (.arg "p") 2 []],
    nd .body .while 3 [nm .test "p", nd .body .try 4 [nd .body .pass 5 [], nd .finalbody .continue 6 []]]]]
theorem C25_witness : ∃ t, visit (exampleEnv (Config.init 1)) nested { S.init with seenFor := 3, userDefs := ["a"] } = .ok t ∧
    t.seenFor = 3 ∧ t.seenWhile = 0 ∧ t.tryFinally = [] ∧ t.userDefs = ["a"] ∧ t.has .continueInFinally = true :=
  ⟨_, rfl, by decide⟩

/-! ### C26: accumulation -/

/-- **C26.** Nothing found is lost. -/
theorem C26_accumulates (env : Env) (n : Node) (s t : S) (h : visit env n s = .ok t) :
    (∀ f, s.has f = true → t.has f = true) ∧ s.modules <+: t.modules ∧ s.members <+: t.members ∧ s.kwargs <+: t.kwargs ∧
    s.userFuncDecos <+: t.userFuncDecos ∧ s.strftime <+: t.strftime ∧ s.bytesDirs <+: t.bytesDirs ∧ s.typecodes <+: t.typecodes ∧
    s.codecsErr <+: t.codecsErr ∧ s.codecsEnc <+: t.codecsEnc ∧ s.out <+: t.out ∧ t.infoVersions = s.infoVersions := by
  have h := visit_steps env n s t h
  have pre : ∀ {α : Type} {P : α → Prop} {l l' : List α}, Grew P l l' → l <+: l' := fun ⟨d, hd, _⟩ => ⟨d, hd.symm⟩
  refine ⟨fun f hf => ?_, pre h.modules, pre h.members, pre h.kwargs, pre h.decos, pre h.strftime, pre h.bytesDirs, pre h.typecodes,
    pre h.codecsErr, pre h.codecsEnc, pre h.out, h.info⟩
  exact List.contains_iff_mem.mpr (h.flags.sub (List.contains_iff_mem.mp hf))

/-- Example: an import and an f-string add to what is there. -/
theorem C26_witness : ∃ t, visit (exampleEnv (Config.init 1)) (prog [nd .body .import 1 [nd .names (.alias "argparse" none) 1 []],
      st 2 (nd .value .joinedStr 2 [])]) { S.init with modules := ["os"], flags := [.namedExprs] } = .ok t ∧
    t.modules = ["os", "argparse"] ∧ t.flags = [.namedExprs, .fstrings] := ⟨_, rfl, rfl, rfl⟩

/-! ### After the traversal -/

theorem each_vvvv (env : Env) (msg : String) : ∀ (l : List String) (s : S), ∃ o, each (fun _ => vvvv env msg) l s = .ok { s with out := s.out ++ o }
  | [], s => ⟨[], by show Except.ok s = _; simp⟩
  | _ :: l, s => by
    have h1 : ∃ o, vvvv env msg s = .ok { s with out := s.out ++ o } := by
      unfold vvvv verbosePrint violates V.lift V.when
      dsimp only
      split
      · exact ⟨_, rfl⟩
      · exact ⟨[], by show Except.ok s = _; simp⟩
    obtain ⟨o, h1⟩ := h1
    obtain ⟨o', h2⟩ := each_vvvv env msg l { s with out := s.out ++ o }
    refine ⟨o ++ o', ?_⟩
    unfold V.each V.seq
    rw [h1]
    dsimp only
    rw [h2]
    simp

theorem removeDef_run (env : Env) (u : String) (s : S) : ∃ o, removeDef env u s =
    .ok { s with modules := s.modules.filter (· != u), members := s.members.filter (· != u), out := s.out ++ o } := by
  unfold removeDef V.rd
  obtain ⟨o, h1⟩ := each_vvvv env ("Ignoring module '" ++ u ++ "' because it's user-defined!") (s.modules.filter (· == u)) s
  obtain ⟨o', h2⟩ := each_vvvv env ("Ignoring member '" ++ u ++ "' because it's user-defined!") (s.members.filter (· == u))
    { s with out := s.out ++ o, modules := s.modules.filter (· != u) }
  refine ⟨o ++ o', ?_⟩
  unfold V.seq
  dsimp only
  rw [h1]
  dsimp only [V.upd]
  rw [h2]
  simp

theorem removeDefs_run (env : Env) : ∀ (l : List String) (s : S), ∃ o, each (removeDef env) l s =
    .ok { s with modules := s.modules.filter (fun m => !l.contains m), members := s.members.filter (fun m => !l.contains m), out := s.out ++ o }
  | [], s => ⟨[], by
      show Except.ok s = _
      have : ∀ m : List String, m.filter (fun m => !([] : List String).contains m) = m := fun m => List.filter_eq_self.mpr fun _ _ => rfl
      rw [this, this, List.append_nil]⟩
  | u :: l, s => by
    obtain ⟨o, h1⟩ := removeDef_run env u s
    obtain ⟨o', h2⟩ := removeDefs_run env l { s with modules := s.modules.filter (· != u), members := s.members.filter (· != u), out := s.out ++ o }
    refine ⟨o ++ o', ?_⟩
    unfold V.each V.seq
    rw [h1]
    dsimp only
    rw [h2]
    have hf : ∀ m : List String, (m.filter (· != u)).filter (fun m => !l.contains m) = m.filter (fun m => !(u :: l).contains m) := by
      intro m
      rw [List.filter_filter]
      congr 1
      funext x
      by_cases hx : x = u <;> simp [hx]
    rw [hf, hf, List.append_assoc]

/-- `__after_visit_all` only removes modules and members, and prints. -/
theorem afterVisitAll_run (env : Env) (s : S) : ∃ o, afterVisitAll env s =
    .ok { s with modules := s.modules.filter (fun m => !(env.order s.userDefs).contains m),
                 members := s.members.filter (fun m => !(env.order s.userDefs).contains m), out := s.out ++ o } :=
  removeDefs_run env (env.order s.userDefs) s

theorem tour_run {env : Env} {n : Node} {s t : S} (h : tour env n s = .ok t) : ∃ u o, visit env n s = .ok u ∧
    t = { u with modules := u.modules.filter (fun m => !(env.order u.userDefs).contains m),
                 members := u.members.filter (fun m => !(env.order u.userDefs).contains m), out := u.out ++ o } := by
  obtain ⟨u, h1, h2⟩ := seq_run h
  obtain ⟨o, h3⟩ := afterVisitAll_run env u
  rw [h3] at h2
  injection h2 with h2
  exact ⟨u, o, h1, h2.symm⟩

/-! ### C28: exclusions -/

/-- **C28.** After the analysis of a program nothing that is excluded has been recorded. -/
theorem C28_excluded (env : Env) (n : Node) (s : S) (h : tour env n S.init = .ok s) :
    (∀ x ∈ env.cfg.exclusions, x ∉ s.modules ∧ x ∉ s.members ∧ x ∉ s.userFuncDecos) ∧
    (∀ f k, f ++ "(" ++ k ++ ")" ∈ env.cfg.exclusions → (f, some k) ∉ s.kwargs) ∧
    (∀ x, "ceh=" ++ x ∈ env.cfg.exclusions → Const.str x ∉ s.codecsErr) ∧
    (∀ x, "ce=" ++ x ∈ env.cfg.exclusions → Const.str x ∉ s.codecsEnc) ∧
    ("long" ∈ env.cfg.exclusions → s.has .longv2 = false) := by
  obtain ⟨u, o, hv, rfl⟩ := tour_run h
  have hs := visit_steps env n _ u hv
  have no : ∀ {x}, x ∈ env.cfg.exclusions → env.cfg.isExcluded x = false → False := fun hx h => by
    simp [Config.isExcluded, hx] at h
  refine ⟨fun x hx => ⟨fun hm => ?_, fun hm => ?_, fun hm => ?_⟩, fun f k hx hm => ?_, fun x hx hm => ?_, fun x hx hm => ?_, fun hx => ?_⟩
  · exact (hs.modules.new (List.mem_filter.mp hm).1).elim nofun fun h => no hx h.2
  · exact (hs.members.new (List.mem_filter.mp hm).1).elim nofun fun h => no hx h.2.1
  · exact (hs.decos.new hm).elim nofun fun h => no hx h.2.1
  · refine (hs.kwargs.new hm).elim nofun fun h => ?_
    have := h.2
    simp [Config.isExcludedKwarg, kwText, hx] at this
  · refine (hs.codecsErr.new hm).elim nofun fun h => ?_
    have := h.2
    simp [Config.isExcludedErrorHandler, Const.text, hx] at this
  · refine (hs.codecsEnc.new hm).elim nofun fun h => ?_
    have := h.2
    simp [Config.isExcludedEncoding, Const.text, hx] at this
  · rw [Bool.eq_false_iff]
    intro hf
    obtain ⟨m, _, hm⟩ := (hs.flags.new (List.contains_iff_mem.mp hf)).elim nofun id
    exact no hx hm.1.2

/-- **C28.** So they are no requirement of the program: the requirements are those of other findings (with `C32_exact`). -/
theorem C28_requirements (env : Env) (n : Node) (s : S) (h : tour env n S.init = .ok s) (m : String) (hm : m ∈ s.modules ∨ m ∈ s.members) :
    m ∉ env.cfg.exclusions := fun hx => by
  have := (C28_excluded env n s h).1 m hx
  exact hm.elim this.1 this.2.1

/-- **C29.** Only members and decorators that there are rules for are recorded. -/
theorem C29_ruled (env : Env) (n : Node) (s : S) (h : tour env n S.init = .ok s) :
    (∀ m ∈ s.members, ∃ r, env.tables.mem m = some r) ∧ ∀ u ∈ s.userFuncDecos, ∃ r, env.tables.deco u = some r := by
  obtain ⟨u, o, hv, rfl⟩ := tour_run h
  have hs := visit_steps env n _ u hv
  refine ⟨fun m hm => ?_, fun u hu => ?_⟩
  · exact (hs.members.new (List.mem_filter.mp hm).1).elim nofun fun h => Option.isSome_iff_exists.mp h.2.2
  · exact (hs.decos.new hu).elim nofun fun h => Option.isSome_iff_exists.mp h.2.2
/-- `@f` without a rule -/
theorem C29_witness_ruled : ∃ s, tour (exampleEnv (Config.init 1)) (prog [nd .body (.functionDef "g") 1 [nd .args .arguments 1 [], nd .body .pass 1 [], nm .decoratorList "f"]])
    S.init = .ok s ∧ s.userFuncDecos = [] ∧ (exampleEnv (Config.init 1)).tables.deco "f" = none := ⟨_, rfl, rfl, rfl⟩

/-- A configuration that excludes a module and a type. -/
def excludingCfg : Config := { Config.init 1 with exclusions := ["argparse", "long"] }
theorem C28_witness : ∃ s, tour (exampleEnv excludingCfg)
      (prog [nd .body .import 1 [nd .names (.alias "argparse" none) 1 [], nd .names (.alias "os" none) 1 []], st 2 (nm .value "long")]) S.init = .ok s ∧
    s.modules = ["os"] ∧ s.flags = [] := ⟨_, rfl, rfl, rfl⟩

/-! ### C29: language features -/

/-- **C29.** A language feature is only detected if the program has one of its constructs (`Spec.Construct`). -/
theorem C29_features_partial (env : Env) (n : Node) (s : S) (h : tour env n S.init = .ok s) (f : Flag) (hf : s.has f = true) :
    ∃ m, In m n ∧ Construct env f m := by
  obtain ⟨u, o, hv, rfl⟩ := tour_run h
  obtain ⟨m, hm, h⟩ := ((visit_steps env n _ u hv).flags.new (List.contains_iff_mem.mp hf)).elim nofun id
  exact ⟨m, hm, constructIn_construct h⟩

/-- **C29.** Every other finding comes from a node that can give rise to it (`Spec.Emits`). -/
theorem C29_findings (env : Env) (n : Node) (s : S) (h : tour env n S.init = .ok s) :
    (∀ m ∈ s.modules, ∃ k, In k n ∧ Emits env k (.module m)) ∧ (∀ m ∈ s.members, ∃ k, In k n ∧ Emits env k (.member m)) ∧
    (∀ p ∈ s.kwargs, ∃ k, In k n ∧ Emits env k (.kwarg p.1 p.2)) ∧ (∀ u ∈ s.userFuncDecos, ∃ k, In k n ∧ Emits env k (.deco u)) ∧
    (∀ d ∈ s.strftime, ∃ k, In k n ∧ Emits env k (.strftime d)) ∧ (∀ d ∈ s.bytesDirs, ∃ k, In k n ∧ Emits env k (.bytesDir d)) ∧
    (∀ d ∈ s.typecodes, ∃ k, In k n ∧ Emits env k (.typecode d)) ∧ (∀ c ∈ s.codecsErr, ∃ k, In k n ∧ Emits env k (.errorHandler c)) ∧
    (∀ c ∈ s.codecsEnc, ∃ k, In k n ∧ Emits env k (.encoding c)) := by
  obtain ⟨u, o, hv, rfl⟩ := tour_run h
  have hs := visit_steps env n _ u hv
  refine ⟨fun m hm => ?_, fun m hm => ?_, fun p hp => ?_, fun x hx => ?_, fun d hd => ?_, fun d hd => ?_, fun d hd => ?_, fun c hc => ?_, fun c hc => ?_⟩
  · exact (hs.modules.new (List.mem_filter.mp hm).1).elim nofun And.left
  · exact (hs.members.new (List.mem_filter.mp hm).1).elim nofun And.left
  · exact (hs.kwargs.new hp).elim nofun And.left
  · exact (hs.decos.new hx).elim nofun And.left
  · exact (hs.strftime.new hd).elim nofun id
  · exact (hs.bytesDirs.new hd).elim nofun id
  · exact (hs.typecodes.new hd).elim nofun id
  · exact (hs.codecsErr.new hc).elim nofun And.left
  · exact (hs.codecsEnc.new hc).elim nofun And.left

/-- Example: an f-string within a call. -/
theorem C29_witness : ∃ s, tour (exampleEnv (Config.init 1))
      (prog [st 1 (nd .value .call 1 [nm .func "print", nd .args .joinedStr 1 []])]) S.init = .ok s ∧ s.flags = [.printv3, .fstrings] :=
  ⟨_, rfl, rfl⟩

/-- An environment with a source text -/
def sourceEnv (t : String) : Env := { exampleEnv (Config.init 1) with source := some t.toList }

/-- The claim is false of parenthesised `with` statements: `with a, herewith(b): pass` has none, but its text has `with(`. -/
theorem C29_false_withParentheses : ∃ s, tour (sourceEnv "with a, herewith(b): pass\n")
      (prog [nd .body .with 1 [nd .items .withItem 1 [nm .contextExpr "a"],
        nd .items .withItem 1 [nd .contextExpr .call 1 [nm .func "herewith", nm .args "b"]], nd .body .pass 1 []]]) S.init = .ok s ∧
    s.has .withParentheses = true := ⟨_, rfl, by decide +kernel⟩

end Vermin.Props
