import Verif.Lemmas.Harmless
import Verif.Props.Layout
/-
C100: harmless statements change nothing.
-/
namespace Vermin.Props
open Vermin Vermin.Py Vermin.Spec Vermin.V

/-- **C100 (findings).** If harmless statements are inserted anywhere in a program, by which the others may move to other positions, such that the same lines
are excluded by comments and the source says the same about `except*` and parentheses after `with`, then the same is found: the visits raise the same error
or end in states that differ in positions, output, the identities of nodes and the name of the last function called (`function_name`, which is only written) only. -/
theorem C100_findings (c : Config) (h h' : Host) (path : String) (toks toks' : List Tok) (n m : Node) (g : Layout) (hp : c.printVisits = false)
    (ho : h'.order = h.order) (hu : ∀ u v, g.uid u = g.uid v → u = v)
    (hs : ∀ k, In k n → SameSource (Env.make c h path toks) (Env.make c h' path toks') k (k.moved g)) (hm : Padded (n.moved g) m) :
    (∀ x, tour (Env.make c h' path toks') m S.init = .error x ↔ tour (Env.make c h path toks) n S.init = .error x) ∧
    (∀ s, tour (Env.make c h path toks) n S.init = .ok s → ∃ (l : Nat × Option String) (lc : _) (o : _),
      tour (Env.make c h' path toks') m S.init = .ok { s with line := l.1, functionName := l.2, lineCol := lc, out := o, ellipsisInSlices := s.ellipsisInSlices.map g.uid }) := by
  rw [make_on c h h' path path toks toks' ho] at hs ⊢
  exact follows_init (tour_padded (env := Env.make c h path toks) (e := siteOf c h' path toks') (g := g) hp rfl hu n m hm fun k hk => agrees_of (hs k hk))

/-- **C100.** Under the same conditions what is detected is the same: the same minimum versions, or the same error. -/
theorem C100_harmless (c : Config) (h h' : Host) (path : String) (toks toks' : List Tok) (n m : Node) (g : Layout) (hp : c.printVisits = false)
    (ho : h'.order = h.order) (hu : ∀ u v, g.uid u = g.uid v → u = v)
    (hs : ∀ k, In k n → SameSource (Env.make c h path toks) (Env.make c h' path toks') k (k.moved g)) (hm : Padded (n.moved g) m) :
    detectSource c h' path m toks' = detectSource c h path n toks := by
  obtain ⟨h1, h2⟩ := C100_findings c h h' path toks toks' n m g hp ho hu hs hm
  exact detect_placed ho rfl h1 h2

/-- Every node where it is. -/
def still : Layout := ⟨Info.line, Info.col, id⟩

mutual
theorem moved_still : (n : Node) → n.moved still = n
  | .mk i ks => by
    simp only [Node.moved, movedAll_still ks]
    rfl
theorem movedAll_still : (ks : List Node) → movedAll still ks = ks
  | [] => rfl
  | k :: ks => by simp only [movedAll, moved_still k, movedAll_still ks]
end

/-- **C100 (in place).** In particular if the other statements stay where they are, as after `;`. -/
theorem C100_inPlace (c : Config) (h : Host) (path : String) (toks : List Tok) (n m : Node) (hp : c.printVisits = false) (hm : Padded n m) :
    detectSource c h path m toks = detectSource c h path n toks := by
  let env := Env.make c h path toks
  obtain ⟨h1, h2⟩ := follows_init (tour_padded (env := env) (e := ⟨env.path, env.source, env.noLines, env.dump⟩) (g := still) hp rfl (fun _ _ h => h) n m
    (by rw [moved_still]; exact hm) fun k _ => ⟨by rw [moved_still]; rfl, fun _ => by rw [moved_still]; rfl, fun _ _ => by rw [moved_still]; rfl⟩)
  exact detect_placed (h' := h) rfl rfl h1 h2

theorem minimum_nothing (env : Env) {s : S} (hf : s.flags = []) (h1 : s.strftime = []) (h2 : s.bytesDirs = []) (h3 : s.typecodes = []) (h4 : s.codecsErr = [])
    (h5 : s.codecsEnc = []) (h6 : s.modules = []) (h7 : s.members = []) (h8 : s.kwargs = []) (h9 : s.userFuncDecos = []) :
    minimumVersions env s = .ok (s, Req.unknown) := by
  have hn : ∀ f, s.has f = false := fun f => by unfold S.has; rw [hf]; rfl
  have hp : printM env (s, Req.unknown) = .ok (s, Req.unknown) := by
    unfold printM
    simp only [hn, Bool.false_eq_true, if_false]
  have hl : ∀ l : List Feature, eachM (featureM env) l (s, Req.unknown) = .ok (s, Req.unknown) := fun l => by
    induction l with
    | nil => rfl
    | cons f l ih =>
      unfold eachM
      have : featureM env f (s, Req.unknown) = .ok (s, Req.unknown) := by
        unfold featureM
        simp only [hn, Bool.false_eq_true, if_false]
      rw [this]
      exact ih
  unfold minimumVersions thenM
  rw [hp]
  dsimp only
  rw [hl]
  dsimp only
  unfold entitiesM
  rw [h1, h2, h3, h4, h5, h6, h7, h8, h9]
  rfl

/-- **C100 (alone).** A program of harmless statements only has no requirements. -/
theorem C100_alone (c : Config) (h : Host) (path : String) (toks : List Tok) {i : Info} {ks : List Node} (hp : c.printVisits = false)
    (hpath : Printable c path) (ho : ∀ l, (h.order l).Perm l) (hi : i.kind = .module) (hk : ∀ k ∈ ks, k.fld = .body ∧ Harmless k) :
    detectSource c h path (.mk i ks) toks = .ok ⟨some ⟨0, 0⟩, some ⟨0, 0⟩⟩ := by
  have hm : PaddedList [] ks := by
    clear hi
    induction ks with
    | nil => exact .nil
    | cons k ks ih => exact .more (by rw [(hk k (by simp)).1]; rfl) (hk k (by simp)).2 (ih fun x hx => hk x (by simp [hx]))
  rw [C100_inPlace c h path toks (.mk i []) (.mk i ks) hp (.node (by rw [hi]; trivial) hm)]
  let env := Env.make c h path toks
  have ho' : env.order [] = [] := List.Perm.eq_nil (ho [])
  obtain ⟨l, o, ht⟩ : ∃ l o, tour env (.mk i []) S.init = .ok { S.init with line := l, out := o } := by
    have ha : visit env (.mk i []) = gen env (.mk i []) [] := by
      rw [visitMk]
      unfold visitAlg
      rw [show (Node.mk i []).kind = .module from hi]
      rfl
    obtain ⟨l, o, hg⟩ := Idle.gen (env := env) (n := .mk i []) (cs := []) (fun c hc => nomatch hc) S.init
    refine ⟨l, o, ?_⟩
    show V.seq (visit env _) _ _ = _
    unfold V.seq
    rw [ha, hg]
    show V.each (removeDef env) (env.order []) _ = _
    rw [ho']
    rfl
  have hz := minimum_nothing env (s := { S.init with line := l, out := o }) rfl rfl rfl rfl rfl rfl rfl rfl rfl rfl
  unfold detectSource visitSource
  rw [hpath.goodPath, show tour (Env.make c h path toks) (.mk i []) S.init = _ from ht]
  simp only [Bool.false_eq_true, if_false, hz, show Env.make c h path toks = env from rfl]
  rfl

/-! ### A case -/

/-- `try: nonlocal x` and `finally: y` -/
def plainTry : Node := prog [nd .body .try 1 [nd .body .nonlocal 2 [], nd .finalbody .expr 4 [nm .value "y" 4]]]

/-- The same with `"text"` before it, `pass` in it and `else: assert y < 1`. -/
def paddedTry : Node := prog [st 1 (nd .value (.const (.str "text")) 1 []),
  nd .body .try 1 [nd .body .nonlocal 2 [], nd .body .pass 3 [],
    nd .orelse .assert 6 [nd .test .compare 6 [nm .left "y" 6, nd .ops (.op .lt) 6 [], nd .comparators (.const (.int 1)) 6 []]],
    nd .finalbody .expr 4 [nm .value "y" 4]]]

theorem harmless_leaf {i : Info} (h : HarmlessKind i.kind) : Harmless (.mk i []) := by
  intro k hk
  cases hk with
  | self => exact h
  | kid h _ => exact absurd h List.not_mem_nil

theorem harmless_node {i : Info} {ks : List Node} (h : HarmlessKind i.kind) (hk : ∀ k ∈ ks, Harmless k) : Harmless (.mk i ks) := by
  intro k h
  cases h with
  | self => assumption
  | kid h h' => exact hk _ h _ h'

/-- A program to which harmless statements are added, also in a branch that it has not; both require 3.0. -/
theorem C100_witness : Padded plainTry paddedTry ∧ detectSource (Config.init 1) exampleHost "a.py" plainTry [] = .ok ⟨none, some ⟨3, 0⟩⟩ ∧
    detectSource (Config.init 1) exampleHost "a.py" paddedTry [] = .ok ⟨none, some ⟨3, 0⟩⟩ := by
  have one : ∀ {x : Node} {P : Node → Prop}, P x → ∀ k ∈ [x], P k := fun h k hk => by rw [List.mem_singleton.mp hk]; exact h
  have hy : ∀ f l, Harmless (nm f "y" l) := fun f l => harmless_leaf (show _ ∧ _ from ⟨by decide, by decide, by decide⟩)
  refine ⟨.node trivial (.more rfl (harmless_node trivial (one (harmless_leaf trivial))) (.into rfl (.node trivial (.keep (.more rfl (harmless_leaf trivial)
    (.more rfl (harmless_node trivial (one (harmless_node trivial fun k hk => ?_))) (.keep .nil))))) .nil)), by decide +kernel, by decide +kernel⟩
  rcases List.mem_cons.mp hk with rfl | hk
  · exact hy _ _
  rcases List.mem_cons.mp hk with rfl | hk
  · exact harmless_leaf (show _ ≠ _ by decide)
  rw [List.mem_singleton.mp hk]
  exact harmless_leaf trivial

/-- `while x: try: pass` and `finally:` with the given statements -/
def loopTry (ks : List Node) : Node := prog [nd .body .while 1 [nm .test "x", nd .body .try 2 (nd .body .pass 3 [] :: ks)]]

/-- Why `continue`, `True` and `long` are left out. -/
theorem C100_others : requirement (Config.init 1) (loopTry [nd .finalbody .pass 4 []]) = some ⟨some ⟨0, 0⟩, some ⟨0, 0⟩⟩ ∧
    requirement (Config.init 1) (loopTry [nd .finalbody .continue 4 []]) = some ⟨none, some ⟨3, 8⟩⟩ ∧
    requirement (Config.init 1) (prog [st 1 (nd .value (.const (.bool true)) 1 [])]) = some ⟨some ⟨2, 3⟩, some ⟨3, 0⟩⟩ ∧
    requirement (Config.init 1) (prog [st 1 (nm .value "long")]) = some ⟨some ⟨2, 0⟩, none⟩ := by decide +kernel

end Vermin.Props
