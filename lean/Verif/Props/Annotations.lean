import Verif.Lemmas.Annotations
import Verif.Props.Reach
import Verif.Props.Pruned
/-
C34, C35: annotations and annotated assignments.
-/
namespace Vermin.Props
open Vermin Vermin.Py Vermin.Spec Vermin.V

/-! ### C34: annotations that are not evaluated -/

/-- **C34.** Without `--eval-annotations` the contents of annotations of the results of functions and of variables do not
influence the analysis, nor do the values of annotated variables beyond their types: with others in their place the visitor ends in the same state, or with the same exception.

Missing: annotations of parameters, which are always visited (`C34_false_parameter`), annotations directly in the body of a
class, which are visited the second time (`C34_false_class`), and whether the annotation of a variable is `Final` or `Literal`
(`C34_false_final`); the text of `--dump`. -/
theorem C34_partial (env : Env) (n m : Node) (hp : env.cfg.printVisits = false) (he : env.cfg.evalAnnotations = false) (h : Reannotated false n m) :
    tour env m = tour env n := by
  unfold tour
  rw [reannotated_visit hp he h]

/-- So the minimum versions of `detect` are the same. -/
theorem C34_detect_partial (cfg : Config) (h : Host) (path : String) (toks : List Tok) (n m : Node) (hp : cfg.printVisits = false)
    (he : cfg.evalAnnotations = false) (hm : Reannotated false n m) : detectSource cfg h path m toks = detectSource cfg h path n toks := by
  unfold detectSource visitSource
  rw [C34_partial (Env.make cfg h path toks) n m hp he hm]

/-- `long.x`, of which the example environment knows -/
def longX (f : Fld) : Node := nd f (.attribute "x") 1 [nm .value "long"]

/-- `def f() -> r: x: t = 1` -/
def annotatedProg (r t : Node) : Node :=
  prog [nd .body (.functionDef "f") 1 [nd .args .arguments 1 [], nd .body .annAssign 2 [nd .target (.name "x" .store) 2 [], t, nd .value (.const (.int 1)) 2 []], r]]

/-- With `--eval-annotations`, `long.x` is found in the annotations. -/
theorem C34_witness : Reannotated false (annotatedProg (nm .returns "a") (nm .annotation "b")) (annotatedProg (longX .returns) (longX .annotation)) ∧
    (∃ s, tour (exampleEnv (Config.init 1)) (annotatedProg (longX .returns) (longX .annotation)) S.init = .ok s ∧ s.members = []) ∧
    (∃ s, tour (exampleEnv { Config.init 1 with evalAnnotations := true }) (annotatedProg (longX .returns) (nm .annotation "b")) S.init = .ok s ∧
      s.members = ["long.x"]) := by
  refine ⟨?_, ⟨_, rfl, by decide +kernel⟩, ⟨_, rfl, by decide +kernel⟩⟩
  exact .node trivial (.into false rfl nofun (.node trivial (.keep (.into false rfl nofun (.variable rfl (.keep (.ann rfl rfl (by simp [AnnIs, longX, nm, nd, Node.kind, Node.info]) (by simp [AnnIs, longX, nm, nd, Node.kind, Node.info]) (.keep .nil))))
    (.returns (.inl ⟨_, rfl⟩) rfl rfl .nil)))) .nil)

/-- The claim is false of parameters: `def f(a: long.x): pass`. -/
theorem C34_false_parameter : (∃ s, tour (exampleEnv (Config.init 1)) (prog [nd .body (.functionDef "f") 1 [nd .args .arguments 1
      [nd .args (.arg "a") 1 [longX .annotation]], nd .body .pass 1 []]]) S.init = .ok s ∧ s.members = ["long.x"]) ∧
    (∃ s, tour (exampleEnv (Config.init 1)) (prog [nd .body (.functionDef "f") 1 [nd .args .arguments 1
      [nd .args (.arg "a") 1 [nm .annotation "b"]], nd .body .pass 1 []]]) S.init = .ok s ∧ s.members = []) :=
  ⟨⟨_, rfl, by decide +kernel⟩, ⟨_, rfl, by decide +kernel⟩⟩

/-- The claim is false of annotations directly in the body of a class: `class A: x: long.x`, and `class A: def f(self) -> long.x: pass`. -/
theorem C34_false_class : (∃ s, tour (exampleEnv (Config.init 1)) (prog [nd .body (.classDef "A") 1 [nd .body .annAssign 2
      [nd .target (.name "x" .store) 2 [], longX .annotation]]]) S.init = .ok s ∧ s.members = ["long.x"]) ∧
    (∃ s, tour (exampleEnv (Config.init 1)) (prog [nd .body (.classDef "A") 1 [nd .body (.functionDef "f") 2 [nd .args .arguments 2 [],
      nd .body .pass 2 [], longX .returns]]]) S.init = .ok s ∧ s.members = ["long.x"]) :=
  ⟨⟨_, rfl, by decide +kernel⟩, ⟨_, rfl, by decide +kernel⟩⟩

/-- The claim is false of `Final`: `x: Final` needs 3.8, `x: int` needs 3.6. -/
theorem C34_false_final : (∃ s, tour (exampleEnv (Config.init 1)) (prog [nd .body .annAssign 1 [nd .target (.name "x" .store) 1 [], nm .annotation "Final"]]) S.init
      = .ok s ∧ s.has .finalAnnotations = true) ∧
    (∃ s, tour (exampleEnv (Config.init 1)) (prog [nd .body .annAssign 1 [nd .target (.name "x" .store) 1 [], nm .annotation "int"]]) S.init
      = .ok s ∧ s.has .finalAnnotations = false) :=
  ⟨⟨_, rfl, by decide +kernel⟩, ⟨_, rfl, by decide +kernel⟩⟩

/-! ### C35: annotated assignments -/

/-- `x = v` -/
def plainAssign (i xi : Info) (v : Node) : Node := .mk { i with kind := .assign } [.mk { xi with fld := .targets } [], v]
/-- `x: t = v` -/
def annotatedAssign (i xi : Info) (t v : Node) : Node := .mk { i with kind := .annAssign } [.mk { xi with fld := .target } [], t, v]

/-- The second state has the flags of the first and those of annotations, and perhaps more lines of output. -/
structure PlusAnnotations (ann : Node) (u t : S) : Prop where
  flags : ∀ f, t.has f = true ↔ u.has f = true ∨ f = .annotations ∨ f = .varAnnotations ∨
    (f = .finalAnnotations ∧ AnnIs ann "Final") ∨ (f = .literalAnnotations ∧ AnnIs ann "Literal")
  rest : ∃ o, t = { u with flags := t.flags, out := o }

/-- `x: T = v` is visited like `x = v`, followed by what concerns the annotation. -/
theorem annotated_run (env : Env) (hp : env.cfg.printVisits = false) (he : env.cfg.evalAnnotations = true) (i xi : Info) (t v : Node) (x id : String) (c : Ctx)
    (hx : xi.kind = .name x .store) (ht : t.kind = .name id c) (hf : t.fld = .annotation) (hv : v.fld = .value) (hid : id ∉ ["long", "True", "False"])
    (hn : i.line.getD 0 ∉ env.noLines) :
    visit env (annotatedAssign i xi t v) = visit env (plainAssign i xi v) ;; (setFlag .annotations ;;
      found env .varAnnotations "variable annotations" (from3 6) (.at (i.line.getD 0)) ;; annKind env (annotatedAssign i xi t v) t) := by
  have hg : ∀ (n : Node) (a : V), n.info.line.getD 0 = i.line.getD 0 → gate env n a = a := fun n a h => by
    unfold gate Env.isNoLine Node.line
    rw [h, if_neg (by simpa using hn)]
  have hvx : ∀ f, visit env (.mk { xi with fld := f } []) = visitName env x := fun f => by
    rw [visitMk]
    unfold visitAlg
    have : (Node.mk { xi with fld := f } []).kind = .name x .store := hx
    rw [this]
  have hvt : visit env t = skip := by
    rw [visitMk]
    unfold visitAlg
    rw [ht]
    show visitName env id = skip
    simp only [List.mem_cons, List.not_mem_nil, or_false, not_or] at hid
    unfold visitName
    rw [if_neg hid.1, decide_eq_false (by rintro (h | h); exact hid.2.1 h; exact hid.2.2 h)]
    rfl
  have hnt : v.fld ≠ .target ∧ v.fld ≠ .targets ∧ v.fld ≠ .annotation := by rw [hv]; exact ⟨nofun, nofun, nofun⟩
  have hft : t.fld ≠ .target ∧ t.fld ≠ .targets ∧ t.fld ≠ .value := by rw [hf]; exact ⟨nofun, nofun, nofun⟩
  have hmt : ∀ f, (Node.mk { xi with fld := f } []).fld = f := fun f => rfl
  have h1 : (plainAssign i xi v).field .value = some v := by
    simp [plainAssign, Node.field, Node.kids, List.find?_cons, hmt, hv]
  have h2 : (plainAssign i xi v).fields .targets = [.mk { xi with fld := .targets } []] := by
    simp [plainAssign, Node.fields, Node.kids, List.filter_cons, hmt, hv]
  have h3 : (annotatedAssign i xi t v).field .value = some v := by
    simp [annotatedAssign, Node.field, Node.kids, List.find?_cons, hmt, hv, hf]
  have h4 : (annotatedAssign i xi t v).field .target = some (.mk { xi with fld := .target } []) := by
    simp [annotatedAssign, Node.field, Node.kids, List.find?_cons, hmt]
  have h5 : (annotatedAssign i xi t v).field .annotation = some t := by
    simp [annotatedAssign, Node.field, Node.kids, List.find?_cons, hmt, hf]
  have h6 : ((plainAssign i xi v).kids.filter fun k => decide (k.fld = .targets) || decide (k.fld = .target)) = [.mk { xi with fld := .targets } []] := by
    simp [plainAssign, Node.kids, List.filter_cons, hmt, hv]
  have h7 : ((annotatedAssign i xi t v).kids.filter fun k => decide (k.fld = .targets) || decide (k.fld = .target)) = [.mk { xi with fld := .target } []] := by
    simp [annotatedAssign, Node.kids, List.filter_cons, hmt, hv, hf]
  have hd : ∀ f, addUserDefNode (.mk { xi with fld := f } []) = addUserDef x := fun f => by
    unfold addUserDefNode
    have : (Node.mk { xi with fld := f } []).kind = .name x .store := hx
    rw [this]
  have hw : ∀ f, assignTargetWalk (.mk { xi with fld := f } []) = [.mk { xi with fld := f } []] := fun f => by
    unfold assignTargetWalk levels levelsList isSubOrAttr
    have : (Node.mk { xi with fld := f } []).kind = .name x .store := hx
    rw [this]
    rfl
  have hb : ∀ f a, bindTarget a (.mk { xi with fld := f } []) = bindTarget a (.mk xi []) := fun f a => rfl
  have hr : addNameResAssign (annotatedAssign i xi t v) = addNameResAssign (plainAssign i xi v) := by
    unfold addNameResAssign
    rw [h1, h3, h6, h7]
    simp only [each, hb]
  have hgen : gen env (annotatedAssign i xi t v) (visitKids env (annotatedAssign i xi t v).kids) =
      gen env (plainAssign i xi v) (visitKids env (plainAssign i xi v).kids) := by
    have he : genEnter env (annotatedAssign i xi t v) = genEnter env (plainAssign i xi v) := by
      unfold genEnter
      rw [hp]
      rfl
    unfold gen
    rw [he]
    show genEnter env (plainAssign i xi v) ;; (visit env _ ;; (visit env t ;; (visit env v ;; skip))) ;; _ =
      genEnter env (plainAssign i xi v) ;; (visit env _ ;; (visit env v ;; skip)) ;; _
    rw [hvx, hvx, hvt]
    rfl
  rw [visitMk env (annotatedAssign i xi t v), visitMk env (plainAssign i xi v)]
  unfold visitAlg
  show visitAnnAssign _ _ _ = visitAssign _ _ _ ;; _
  unfold visitAnnAssign visitAssign
  rw [hg _ _ rfl, hg _ _ rfl, h2, h4, h5, hr, hgen, he]
  simp only [each, opt, addTargets, hw, hd]
  show addUserDef x ;; _ ;; gen env _ _ ;; _ ;; found env .varAnnotations "variable annotations" (from3 6) (.at (i.line.getD 0)) ;; _ = _
  have assoc : ∀ a b c : V, a ;; (b ;; c) = a ;; b ;; c := fun a b c => by
    funext s
    unfold V.seq
    cases a s <;> rfl
  have ss : ∀ a : V, a ;; skip = a := fun a => by
    funext s
    unfold V.seq
    cases a s <;> rfl
  simp only [assoc, ss]

/-- **C35.** With `--eval-annotations` the value `v` of `x: T = v` is analysed like in `x = v`: the findings and everything that
is known afterwards are the same, except for the features of annotations; and what raises an exception in `x = v` also does in
`x: T = v`.  Here `T` is a name; for other annotations their findings come in addition (`C35_reported`).

Missing: without `--eval-annotations` the value is not visited at all (`C35_false`). -/
theorem C35_partial (env : Env) (hp : env.cfg.printVisits = false) (he : env.cfg.evalAnnotations = true) (i xi : Info) (t v : Node) (x id : String) (c : Ctx)
    (hx : xi.kind = .name x .store) (ht : t.kind = .name id c) (hf : t.fld = .annotation) (hv : v.fld = .value) (hid : id ∉ ["long", "True", "False"])
    (hn : i.line.getD 0 ∉ env.noLines) (s : S) :
    (∀ e, visit env (plainAssign i xi v) s = .error e → visit env (annotatedAssign i xi t v) s = .error e) ∧
    (∀ u, visit env (annotatedAssign i xi t v) s = .ok u → ∃ w, visit env (plainAssign i xi v) s = .ok w ∧ PlusAnnotations t w u) := by
  rw [annotated_run env hp he i xi t v x id c hx ht hf hv hid hn]
  constructor
  · intro e h
    unfold V.seq
    rw [h]
  · intro u h
    obtain ⟨w, h1, h2⟩ := seq_run h
    refine ⟨w, h1, ?_⟩
    obtain ⟨a, h2, h3⟩ := seq_run h2
    obtain ⟨b, h2, h4⟩ := seq_run h2
    rw [upd_run h2] at h4
    obtain ⟨b, h4, h5⟩ := seq_run h4
    rw [upd_run h4] at h5
    obtain ⟨o, rfl⟩ := verbosePrint_run h5
    clear h h1 h2 h4 h5
    have hann : ∀ y, AnnIs t y ↔ id = y := fun y => by
      constructor
      · rintro (⟨c', h⟩ | ⟨h, _⟩) <;> rw [ht] at h <;> cases h
        rfl
      · rintro rfl
        exact .inl ⟨c, ht⟩
    have hset : ∀ (s : S) (f g : Flag), (s.set g).has f = true ↔ s.has f = true ∨ f = g := fun s f g => by
      unfold S.set S.has
      dsimp only
      split
      · rename_i hc
        constructor
        · exact .inl
        · rintro (h | rfl)
          · exact h
          · exact hc
      · simp [or_comm]
    unfold annKind at h3
    have hisAnn : ∀ y, isAnn t y = decide (id = y) := fun y => by
      unfold isAnn Node.nameId
      rw [ht]
      simp
    rw [hisAnn, hisAnn] at h3
    have hout : ∀ (s : S) (o : List String) (f : Flag), S.has { s with out := o } f = s.has f := fun _ _ _ => rfl
    by_cases hfin : id = "Final"
    · rw [if_pos (by simp [hfin])] at h3
      obtain ⟨y, h6, h7⟩ := seq_run h3
      rw [upd_run h6] at h7
      obtain ⟨o', rfl⟩ := verbosePrint_run h7
      refine ⟨fun f => ?_, ⟨_, rfl⟩⟩
      simp only [hout, hset, hann, hfin]
      simp [or_assoc]
    · rw [if_neg (by simpa using hfin)] at h3
      by_cases hlit : id = "Literal"
      · rw [decide_eq_true hlit] at h3
        obtain ⟨y, h6, h7⟩ := seq_run (show (found env _ _ _ _ _) _ = _ from h3)
        rw [upd_run h6] at h7
        obtain ⟨o', rfl⟩ := verbosePrint_run h7
        refine ⟨fun f => ?_, ⟨_, rfl⟩⟩
        simp only [hout, hset, hann, hlit]
        simp [or_assoc]
      · rw [decide_eq_false hlit] at h3
        injection h3 with h3
        subst h3
        refine ⟨fun f => ?_, ⟨_, rfl⟩⟩
        simp only [hout, hset, hann, hlit, hfin, and_false, or_false]
        simp [or_assoc]

/-- Whatever the annotation, the certain constructs of the value are found, as in `x = v`. -/
theorem C35_reported_partial (env : Env) (he : env.cfg.evalAnnotations = true) (i xi : Info) (t v m : Node) (f : Flag) (hn : i.line.getD 0 ∉ env.noLines)
    (hr : Reach env m v) (hm : ¬ Marked env m) (hf : f ∈ certain) (hc : Construct env f m) (s u : S) :
    (visit env (annotatedAssign i xi t v) s = .ok u → u.has f = true) ∧ (visit env (plainAssign i xi v) s = .ok u → u.has f = true) := by
  refine ⟨fun h => C30_visit env _ m f s u h (.kid ⟨.tail _ (.tail _ (.head _)), fun hk => hn hk.2, id, fun hk => ?_⟩ hr) hm hf hc,
    fun h => C30_visit env _ m f s u h (.kid ⟨.tail _ (.head _), fun hk => hn hk.2, id, fun hk => ?_⟩ hr) hm hf hc⟩
  · rw [hk.1] at he; cases he
  · rw [hk.1] at he; cases he

/-- Example: `x: int = f""` and `x = f""`; the f-string is found in both if annotations are evaluated. -/
theorem C35_witness : let env := exampleEnv { Config.init 1 with evalAnnotations := true }
    let i := (nd .body .pass 1 []).info; let xi := (nd .target (.name "x" .store) 1 []).info; let v := nd .value .joinedStr 1 []
    (∃ s, visit env (annotatedAssign i xi (nm .annotation "int") v) S.init = .ok s ∧ s.flags = [.fstrings, .annotations, .varAnnotations]) ∧
    (∃ s, visit env (plainAssign i xi v) S.init = .ok s ∧ s.flags = [.fstrings]) := ⟨⟨_, rfl, by decide +kernel⟩, ⟨_, rfl, by decide +kernel⟩⟩

/-- The claim is false if annotations are not evaluated, which is the default: the f-string of `x: int = f""` is not found. -/
theorem C35_false : let env := exampleEnv (Config.init 1)
    let i := (nd .body .pass 1 []).info; let xi := (nd .target (.name "x" .store) 1 []).info; let v := nd .value .joinedStr 1 []
    (∃ s, tour env (prog [annotatedAssign i xi (nm .annotation "int") v]) S.init = .ok s ∧ s.has .fstrings = false) ∧
    (∃ s, tour env (prog [plainAssign i xi v]) S.init = .ok s ∧ s.has .fstrings = true) := ⟨⟨_, rfl, by decide +kernel⟩, ⟨_, rfl, by decide +kernel⟩⟩

/-- **C35, exactly.** Without `--eval-annotations` nothing is taken from the value but the type of the variable: it may be replaced by any value of
the same type, and left out if its type is not looked at.  (`C34_partial` has this for all annotated assignments of a program at once.) -/
theorem C35_without (env : Env) (he : env.cfg.evalAnnotations = false) (i xi : Info) (t v : Node) (ht : t.fld ≠ .value) (hv : v.fld = .value) :
    (∀ w, w.fld = .value → AlikeValues v w → visit env (annotatedAssign i xi t w) = visit env (annotatedAssign i xi t v)) ∧
    (Untyped v.kind → visit env (.mk { i with kind := .annAssign } [.mk { xi with fld := .target } [], t]) = visit env (annotatedAssign i xi t v)) := by
  refine ⟨fun w hw ha => ?_, fun hu => ?_⟩
  · rw [visitMk env (annotatedAssign i xi t w), visitMk env (annotatedAssign i xi t v)]
    exact annAssign_same he rfl (.keep (.keep (.value hv hw ha .nil)))
  · rw [visitMk env (.mk _ _), visitMk env (annotatedAssign i xi t v)]
    refine annAssign_same he rfl (.keep (.keep (.noValue hv hu ?_ .nil)))
    intro x hx
    cases hx

/-- Examples: `x: t = f""` is like `x: t`, and `x: t = {1: f""}` like `x: t = {}`. -/
theorem C35_without_witness : Untyped (nd .value .joinedStr 1 []).kind ∧
    AlikeValues (nd .value (.dict [false]) 1 [nd .keys (.const (.int 1)) 1 [], nd .values .joinedStr 1 []]) (nd .value (.dict []) 1 []) ∧
    AlikeValues (nd .value .call 1 [nm .func "f", nd .args .joinedStr 1 []]) (nd .value .call 1 [nm .func "f"]) :=
  ⟨trivial, .literal rfl rfl, .call rfl rfl rfl⟩

end Vermin.Props
