import Verif.Props.Reach
import Verif.Lemmas.Finally
import Verif.Lemmas.Toured
/-
C42: `continue` in `finally` blocks.
-/
namespace Vermin.Props
open Vermin Vermin.Spec Py V

/-- C42: if it is reported then there is a `finally` block with a `continue` about a loop outside of it, provided that no loop is directly a
statement of a class. -/
theorem C42_sound_partial (env : Env) (n : Node) (s : S) (hc : NoClassLoops n) (h : tour env n S.init = .ok s) :
    s.has .continueInFinally = true → ContinueInFinally n := by
  intro hf
  obtain ⟨u, o, hv, rfl⟩ := tour_run h
  have hu := (visit_cont env n hc S.init u nofun hv).2 (by simpa [S.has] using hf)
  rcases hu with h | ⟨h, _⟩ | h
  · cases h
  · cases h
  · exact h

/-- C42: a `continue` in the `finally` block of a `try` statement that is looked at is reported, if there is no loop between. -/
theorem C42_complete_partial (env : Env) (n t f c : Node) (s : S) (h : tour env n S.init = .ok s) (hr : Reach env t n) (ht : t.kind = .try)
    (hm : ¬ Marked env t) (hf : f ∈ t.fields .finalbody) (hd : ReachDirect env c f) (hc : c.kind = .continue) :
    s.has .continueInFinally = true := by
  obtain ⟨u, o, hv, rfl⟩ := tour_run h
  obtain ⟨a, b, _, h2, h3⟩ := reach_runs hr _ _ hv
  obtain ⟨a', b', _, h2', h3'⟩ := try_sets ht hm hf hd hc _ _ h2
  rw [upd_run h2'] at h3'
  simpa [S.has] using h3.flags (h3'.flags (mem_set _ _))

/-- C42, exactly: `continue` in `finally` is reported iff a `continue` comes up in the `finally` block of a `try` statement that comes up,
and not by way of a loop (its body or its `else` branch).  Where this differs from the claim: marked lines are left out, `try` with `except*`
is no `try`, `else` branches are taken for the inside of their loop, and loops directly in a class do not count. -/
theorem C42_exact_partial (env : Env) (n : Node) (s : S) (hg : ContinueIsStatement n) (h : tour env n S.init = .ok s) :
    s.has .continueInFinally = true ↔ ReportsContinue env n := by
  obtain ⟨u, o, hv, rfl⟩ := tour_run h
  constructor
  · intro hf
    rcases ((visitNode_tells env n).1 S.init u nofun hv).2 (by simpa [S.has] using hf) with h | ⟨h, _⟩ | h
    · cases h
    · cases h
    · exact h
  · rintro ⟨t, f, c, ht, hk, hm, hf, hd, hc⟩
    have hff := (List.mem_filter.mp hf).1
    have hft : In c t := .kid hff (In.of_touredNear hd)
    obtain ⟨a, b, _, h2, h3⟩ := toured_runs ht hft hc hg _ _ hv
    obtain ⟨a', b', _, h2', h3'⟩ := try_sets_runs hk hm hf (touredNear_runs hd hc (statement_sub hg (in_trans (.kid hff (.self _)) (In.of_toured ht)))) hc _ _ h2
    rw [upd_run h2'] at h3'
    simpa [S.has] using h3.flags (h3'.flags (mem_set _ _))

/-! ### Examples -/

mutual
/-- The parts through edges with `p`, to check examples. -/
def partsOf (p : Info → Node → Bool) : Node → List Node
  | .mk i ks => .mk i ks :: partsOfList p i ks
def partsOfList (p : Info → Node → Bool) (i : Info) : List Node → List Node
  | [] => []
  | k :: ks => (if p i k then partsOf p k else []) ++ partsOfList p i ks
end
theorem mem_partsOfList {p : Info → Node → Bool} {i : Info} {m k : Node} (hp : p i k = true) (h : m ∈ partsOf p k) :
    ∀ {ks : List Node}, k ∈ ks → m ∈ partsOfList p i ks
  | j :: ks, hk => by
    unfold partsOfList
    rcases List.mem_cons.mp hk with rfl | hk
    · rw [if_pos hp]; exact List.mem_append_left _ h
    · exact List.mem_append_right _ (mem_partsOfList hp h hk)
theorem mem_partsOf_self (p : Info → Node → Bool) : ∀ n, n ∈ partsOf p n
  | .mk i ks => by unfold partsOf; exact .head _
theorem mem_partsOf_kid {p : Info → Node → Bool} {m k : Node} : ∀ {n : Node}, p n.info k = true → k ∈ n.kids → m ∈ partsOf p k → m ∈ partsOf p n
  | .mk i ks, hp, hk, h => by unfold partsOf; exact .tail _ (mem_partsOfList hp h hk)
def isLoop : Kind → Bool
  | .for | .asyncFor | .while => true
  | _ => false
def isTry : Kind → Bool
  | .try | .tryStar => true
  | _ => false
def isContinue : Kind → Bool
  | .continue => true
  | _ => false
def isOpaque : Kind → Bool
  | .keyword _ | .import | .importFrom _ _ | .name _ _ | .const _ | .alias _ _ | .pass | .break | .continue | .op _ => true
  | _ => false
def isAnnAssign : Kind → Bool
  | .annAssign => true
  | _ => false
theorem isOpaque_iff (k : Kind) : isOpaque k = true ↔ Opaque k := by cases k <;> simp [isOpaque, Opaque]
theorem isLoop_iff (k : Kind) : isLoop k = true ↔ IsLoop k := by cases k <;> simp [isLoop, IsLoop]
theorem mem_partsOf_in {m n : Node} (h : In m n) : m ∈ partsOf (fun _ _ => true) n := by
  induction h with
  | self n => exact mem_partsOf_self _ n
  | kid hk _ ih => exact mem_partsOf_kid rfl hk ih
theorem mem_partsOf_direct {m n : Node} (h : Direct m n) : m ∈ partsOf (fun n k => !(isLoop n.kind && decide (k.fld = .body))) n := by
  induction h with
  | self n => exact mem_partsOf_self _ n
  | @kid n k c hk hn _ ih =>
    refine mem_partsOf_kid ?_ hk ih
    have hn : ¬ (isLoop n.kind = true ∧ k.fld = .body) := fun h => hn ⟨(isLoop_iff _).mp h.1, h.2⟩
    cases h : isLoop n.kind <;> cases h' : decide (k.fld = .body) <;> simp_all [Node.kind]

/-- `while a: try: pass; finally: <ks>` -/
def inFinallyOf (k : Kind) (ks : List Node) : Node :=
  prog [nd .body .while 1 [nm .test "a", nd .body k 2 (nd .body .pass 3 [] :: ks)]]
/-- `if b: continue` -/
def ifContinue (f : Fld) : Node := nd f .if 4 [nm .test "b" 4, nd .body .continue 5 []]
/-- `for x in y: <body> else: <orelse>` -/
def forLoop (f : Fld) (body orelse : Node) : Node := nd f .for 4 [nd .target (.name "x" .store) 4 [], nm .iter "y" 4, body, orelse]

/-- Reported: `while a: try: pass; finally: if b: continue`. -/
theorem C42_witness : ∃ t f c s, tour (exampleEnv (Config.init 1)) (inFinallyOf .try [ifContinue .finalbody]) S.init = .ok s ∧
    Reach (exampleEnv (Config.init 1)) t (inFinallyOf .try [ifContinue .finalbody]) ∧ t.kind = .try ∧ ¬ Marked (exampleEnv (Config.init 1)) t ∧
    f ∈ t.fields .finalbody ∧ ReachDirect (exampleEnv (Config.init 1)) c f ∧ c.kind = .continue ∧ s.has .continueInFinally = true := by
  have hu : ∀ {n k : Node}, n.kind = .while ∨ n.kind = .if ∨ n.kind = .module → ¬ Unevaluated (exampleEnv (Config.init 1)) n k := by
    rintro n k hk ⟨_, h | ⟨⟨_, h | h⟩, _⟩⟩ <;> rw [h] at hk <;> rcases hk with hk | hk | hk <;> cases hk
  refine ⟨nd .body .try 2 [nd .body .pass 3 [], ifContinue .finalbody], ifContinue .finalbody, nd .body .continue 5 [], _, rfl, ?_, rfl,
    by simp [Marked, exampleEnv], .head _, ?_, rfl, by decide +kernel⟩
  · refine .kid ⟨List.mem_of_getElem? (i := 0) rfl, by simp [Marked, exampleEnv], id, hu (.inr (.inr rfl))⟩ ?_
    refine .kid ⟨List.mem_of_getElem? (i := 1) rfl, by simp [Marked, exampleEnv], id, hu (.inl rfl)⟩ (.self _)
  · exact .kid ⟨List.mem_of_getElem? (i := 1) rfl, by simp [Marked, exampleEnv], id, hu (.inr (.inl rfl))⟩ id (.self _)

/-- Not reported: the `continue` is about a loop in the `finally` block, or in the `try` block. -/
theorem C42_witness_not :
    (∃ s, tour (exampleEnv (Config.init 1)) (inFinallyOf .try [forLoop .finalbody (ifContinue .body) (nd .orelse .pass 6 [])]) S.init = .ok s ∧
      s.has .continueInFinally = false) ∧
    (∃ s, tour (exampleEnv (Config.init 1)) (inFinallyOf .try [ifContinue .body, nd .finalbody .pass 6 []]) S.init = .ok s ∧
      s.has .continueInFinally = false) ∧
    (∃ s, tour (exampleEnv (Config.init 1)) (inFinallyOf .try [forLoop .finalbody (nd .body .try 5 [nd .body .pass 5 [], ifContinue .finalbody])
      (nd .orelse .pass 6 [])]) S.init = .ok s ∧ s.has .continueInFinally = true) :=
  ⟨⟨_, rfl, by decide +kernel⟩, ⟨_, rfl, by decide +kernel⟩, ⟨_, rfl, by decide +kernel⟩⟩

/-- The claim is false of the `else` branch of a loop in the `finally` block, whose `continue` is about the outer loop: not reported. -/
theorem C42_false_else : (∃ s, tour (exampleEnv (Config.init 1))
      (inFinallyOf .try [forLoop .finalbody (nd .body .pass 5 []) (ifContinue .orelse)]) S.init = .ok s ∧ s.has .continueInFinally = false) ∧
    ContinueInFinally (inFinallyOf .try [forLoop .finalbody (nd .body .pass 5 []) (ifContinue .orelse)]) := by
  refine ⟨⟨_, rfl, by decide +kernel⟩, nd .body .try 2 [nd .body .pass 3 [], forLoop .finalbody (nd .body .pass 5 []) (ifContinue .orelse)],
    forLoop .finalbody (nd .body .pass 5 []) (ifContinue .orelse), nd .body .continue 5 [],
    .kid (List.mem_of_getElem? (i := 0) rfl) (.kid (List.mem_of_getElem? (i := 1) rfl) (.self _)), .inl rfl, .head _, ?_, rfl⟩
  exact .kid (List.mem_of_getElem? (i := 3) rfl) (fun h => by cases h.2) (.kid (List.mem_of_getElem? (i := 1) rfl) (fun h => h.1) (.self _))

/-- The claim is false of `try` statements with `except*`: not reported. -/
theorem C42_false_tryStar : (∃ s, tour (exampleEnv (Config.init 1)) (inFinallyOf .tryStar [ifContinue .finalbody]) S.init = .ok s ∧
      s.has .continueInFinally = false) ∧ ContinueInFinally (inFinallyOf .tryStar [ifContinue .finalbody]) := by
  refine ⟨⟨_, rfl, by decide +kernel⟩, nd .body .tryStar 2 [nd .body .pass 3 [], ifContinue .finalbody], ifContinue .finalbody, nd .body .continue 5 [],
    .kid (List.mem_of_getElem? (i := 0) rfl) (.kid (List.mem_of_getElem? (i := 1) rfl) (.self _)), .inr rfl, .head _, ?_, rfl⟩
  exact .kid (List.mem_of_getElem? (i := 1) rfl) (fun h => h.1) (.self _)

/-- `try: pass; finally: class A: for x in y: if b: continue` -/
def classLoop : Node := prog [nd .body .try 2 [nd .body .pass 3 [], nd .finalbody (.classDef "A") 3 [forLoop .body (ifContinue .body) (nd .orelse .pass 6 [])]]]

/-- The claim is false of loops directly in the body of a class: their `continue` is reported, because the body is visited a second time and
without the statements themselves. -/
theorem C42_false_class : (∃ s, tour (exampleEnv (Config.init 1)) classLoop S.init = .ok s ∧ s.has .continueInFinally = true) ∧
    ¬ ContinueInFinally classLoop := by
  refine ⟨⟨_, rfl, by decide +kernel⟩, ?_⟩
  rintro ⟨t, f, c, ht, hk, hf, hd, hc⟩
  have : ∀ t ∈ partsOf (fun _ _ => true) classLoop, (isTry t.kind = true) → ∀ f ∈ t.fields .finalbody,
      ∀ c ∈ partsOf (fun n k => !(isLoop n.kind && decide (k.fld = .body))) f, isContinue c.kind = false := by decide +kernel
  have := this t (mem_partsOf_in ht) (by rcases hk with h | h <;> rw [h] <;> rfl) f hf c (mem_partsOf_direct hd)
  rw [hc] at this
  cases this

/-- The nodes and parts for which the grammar excludes `continue`. -/
def noContinue (n : Node) : Bool :=
  (partsOf (fun _ _ => true) n).all fun m => m.kids.all fun k =>
    !(isOpaque m.kind || isAnnAssign m.kind || decide (k.fld = .returns)) || (partsOf (fun _ _ => true) k).all fun c => !isContinue c.kind
theorem noContinue_sound {n : Node} (h : noContinue n = true) : ContinueIsStatement n := by
  intro m k c hm hk ho hc hck
  have := List.all_eq_true.mp (List.all_eq_true.mp h m (mem_partsOf_in hm)) k hk
  have ho : (isOpaque m.kind || isAnnAssign m.kind || decide (k.fld = .returns)) = true := by
    rcases ho with ho | ho | ho
    · rw [(isOpaque_iff _).mpr ho]; rfl
    · rw [ho]; simp [isAnnAssign]
    · simp [ho]
  rw [ho, Bool.not_true, Bool.false_or] at this
  have := List.all_eq_true.mp this c (mem_partsOf_in hc)
  rw [hck] at this
  cases this

/-- The exact form applies to the examples, reported and not: so the `continue` in the class is one that comes up, and the one in the
`else` branch is not. -/
theorem C42_witness_exact : ContinueIsStatement (inFinallyOf .try [ifContinue .finalbody]) ∧
    ReportsContinue (exampleEnv (Config.init 1)) (inFinallyOf .try [ifContinue .finalbody]) ∧
    ContinueIsStatement classLoop ∧ ReportsContinue (exampleEnv (Config.init 1)) classLoop ∧
    ¬ ReportsContinue (exampleEnv (Config.init 1)) (inFinallyOf .try [forLoop .finalbody (nd .body .pass 5 []) (ifContinue .orelse)]) ∧
    ¬ ReportsContinue (exampleEnv (Config.init 1)) (inFinallyOf .tryStar [ifContinue .finalbody]) := by
  have h1 : ContinueIsStatement (inFinallyOf .try [ifContinue .finalbody]) := noContinue_sound (by decide +kernel)
  have h2 : ContinueIsStatement classLoop := noContinue_sound (by decide +kernel)
  have h3 : ContinueIsStatement (inFinallyOf .try [forLoop .finalbody (nd .body .pass 5 []) (ifContinue .orelse)]) := noContinue_sound (by decide +kernel)
  have h4 : ContinueIsStatement (inFinallyOf .tryStar [ifContinue .finalbody]) := noContinue_sound (by decide +kernel)
  obtain ⟨⟨s2, hs2, hf2⟩, _⟩ := C42_false_class
  obtain ⟨⟨s3, hs3, hf3⟩, _⟩ := C42_false_else
  obtain ⟨⟨s4, hs4, hf4⟩, _⟩ := C42_false_tryStar
  obtain ⟨_, _, _, s1, hs1, _, _, _, _, _, _, hf1⟩ := C42_witness
  refine ⟨h1, (C42_exact_partial _ _ _ h1 hs1).mp hf1, h2, (C42_exact_partial _ _ _ h2 hs2).mp hf2, fun h => ?_, fun h => ?_⟩
  · rw [(C42_exact_partial _ _ _ h3 hs3).mpr h] at hf3; cases hf3
  · rw [(C42_exact_partial _ _ _ h4 hs4).mpr h] at hf4; cases hf4

end Vermin.Props
