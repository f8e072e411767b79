import Verif.Lemmas.Marks
import Verif.Props.Relaxed
import Verif.Props.Layout
/-
C112: marking further statements never raises what a source requires.
-/
namespace Vermin.Props
open Vermin Vermin.Py Vermin.Spec Vermin.V

/-- **C112 (findings).** If further statements of a program are marked, none of which matters elsewhere (names they define do not outlast them), a visit of it that succeeded before still does, and finds
nothing else: it leads to the same state up to positions and output, but with no other modules, members, features, keyword arguments, decorators, error handlers
and encodings found. -/
theorem C112_findings_partial (c : Config) (h h' : Host) (path : String) (toks toks' : List Tok) (n : Node) (g : Layout) (ho : h'.order = h.order)
    (hu : ∀ u v, g.uid u = g.uid v → u = v) (hp : Printable c path) (hm : FurtherMarks (Env.make c h path toks) (Env.make c h' path toks') g n) (s : S)
    (hs : tour (Env.make c h path toks) n S.init = .ok s) :
    ∃ y l lc o, tour (Env.make c h' path toks') (n.moved g) S.init = .ok ((s.withOut y).placed g l lc o) ∧ Fewer y s.findings := by
  rw [make_on c h h' path path toks toks' ho] at hm ⊢
  have ag : ∀ k, In k n → ((k.moved g).line ∈ ((Env.make c h path toks).on (siteOf c h' path toks')).noLines ↔ k.line ∈ (Env.make c h path toks).noLines) →
      Agrees (Env.make c h path toks) (siteOf c h' path toks') g k := fun k hk hl => agrees_of ⟨hl, hm.star k hk, hm.paren k hk⟩
  refine tour_marks (env := Env.make c h path toks) (e := siteOf c h' path toks') (M := fun k => Marked ((Env.make c h path toks).on (siteOf c h' path toks')) (k.moved g) ∧ ¬ Marked (Env.make c h path toks) k) hp.1 rfl hu n
    (fun k hk hM => hm.silent k hk hM.1 hM.2) (fun k hk hM => hM.1) (fun k hk hM hq => ag k hk ⟨fun hl => ?_, hm.kept k hk⟩)
    (fun k hk d hd => have hd' : In d n := In.trans (.kid (List.mem_filter.mp hd).1 (.self d)) hk; ag d hd' ⟨hm.decorators k hk d hd, hm.kept d hd'⟩) hs
  exact (Classical.not_not.mp fun hn => hM ⟨⟨by rw [Node.moved_kind]; exact hq, hl⟩, hn⟩).2

/-- What a visit with fewer findings requires is required by the other. -/
theorem requires_fewer {c : Config} {h h' : Host} {path : String} {toks toks' : List Tok} {s : S} {y : Findings} {g : Layout} {l : Nat × Option String}
    {lc : Dict Ent (Nat × Option Nat)} {o : List String} (hy : Fewer y s.findings) {r : Req}
    (hq : Requires (Env.make c h' path toks') ((s.withOut y).placed g l lc o) r) : Requires (Env.make c h path toks) s r := by
  cases hq with
  | feature hf he => exact .feature (List.contains_iff_mem.mpr (hy.flags _ (List.contains_iff_mem.mp hf))) he
  | strftime hd ht => exact .strftime hd ht
  | bytesDir hd ht => exact .bytesDir hd ht
  | typecode hd ht => exact .typecode hd ht
  | errorHandler hd ht => exact .errorHandler (hy.errs _ hd) ht
  | encoding hd hk ht => exact .encoding (hy.encs _ hd) hk ht
  | module hd ht => exact .module (hy.modules _ hd) ht
  | member hd ht => exact .member (hy.members _ hd) ht
  | kwarg hd ht => exact .kwarg (hy.kwargs _ hd) ht
  | decorator hd ht => exact .decorator (hy.decos _ hd) ht

/-- **C112 (in part).** If minimum versions are detected for a source, they are also detected if further statements of it are marked, and every interpreter that
satisfies the former satisfies the latter.  Missing: statements with directives of `strftime` or bytes, type codes, `yield`, `await` or an
ellipsis in a slice.  For statements whose definitions outlast them the claim is false (`C89_false_comments`), and for those with calls as in `f()()` (`C112_false_unnamed`). -/
theorem C112_marks_partial (c : Config) (h h' : Host) (path : String) (toks toks' : List Tok) (n : Node) (g : Layout) (ho : h'.order = h.order)
    (hu : ∀ u v, g.uid u = g.uid v → u = v) (hp : Printable c path) (hm : FurtherMarks (Env.make c h path toks) (Env.make c h' path toks') g n) (m : Req)
    (hd : detectSource c h path n toks = .ok m) :
    ∃ m', detectSource c h' path (n.moved g) toks' = .ok m' ∧ ∀ v, Satisfies v m → Satisfies v m' := by
  obtain ⟨_, s, s1, hs, hv⟩ := (detect_ok_iff c h path n toks m).mp hd
  obtain ⟨y, l, lc, o, hs', hf⟩ := C112_findings_partial c h h' path toks toks' n g ho hu hp hm s hs
  have hq : ∀ r, Requires (Env.make c h' path toks') ((s.withOut y).placed g l lc o) r → Requires (Env.make c h path toks) s r := fun r => requires_fewer hf
  have he := encodings_ok (std_text c) hv
  have he' : EncodingsOk ((s.withOut y).placed g l lc o) := fun k hk => he k (hf.encs k hk)
  obtain ⟨k1, _⟩ := C32_raises_std (env := Env.make c h path toks) (s := s) rfl hp.1 he
  obtain ⟨k2, _⟩ := C32_raises_std (env := Env.make c h' path toks') (s := (s.withOut y).placed g l lc o) rfl hp.1 he'
  cases hv' : minimumVersions (Env.make c h' path toks') ((s.withOut y).placed g l lc o) with
  | error e =>
    obtain ⟨hi, ⟨a, ha, ha2⟩, ⟨b, hb, hb3⟩⟩ := k2.mp ⟨e, hv'⟩
    obtain ⟨e', he'⟩ := k1.mpr ⟨hi, ⟨a, hq a ha, ha2⟩, ⟨b, hq b hb, hb3⟩⟩
    rw [hv] at he'; cases he'
  | ok x =>
    obtain ⟨s2, m'⟩ := x
    refine ⟨m', (detect_ok_iff c h' path (n.moved g) toks' m').mpr ⟨hp.goodPath, _, s2, hs', hv'⟩, fun v hs => ?_⟩
    obtain ⟨hmaj, hall⟩ := (C32_satisfies hv v).mp hs
    exact (C32_satisfies hv' v).mpr ⟨hmaj, fun r hr => hall r (hq r hr)⟩

/-! ### Example -/

/-- Every node at its place -/
def stay : Layout := ⟨fun i => i.line, fun i => i.col, id⟩

/-- `with f(a) as b: pass` -/
def withCall : Node := nd .body .with 1 [nd .items .withItem 1 [nd .contextExpr .call 1 [nm .func "f" 1, nm .args "a" 1], nd .optionalVars (.name "b" .store) 1 []], nd .body .pass 1 []]

/-- The tokens of interest of `with f(a) as b: pass  # novm` -/
def novmToks : List Tok := [⟨.comment, "# novm".toList, 1, 22, 1⟩]

theorem withCall_parts {P : Node → Prop} (h1 : P withCall) (h2 : P (nd .items .withItem 1 [nd .contextExpr .call 1 [nm .func "f" 1, nm .args "a" 1], nd .optionalVars (.name "b" .store) 1 []])) (h3 : P (nd .body .pass 1 []))
    (h4 : P (nd .contextExpr .call 1 [nm .func "f" 1, nm .args "a" 1])) (h5 : P (nm .func "f" 1)) (h6 : P (nm .args "a" 1))
    (h7 : P (nd .optionalVars (.name "b" .store) 1 [])) : ∀ k, In k withCall → P k := by
  have leaf : ∀ {i : Info} {k : Node}, In k (.mk i []) → k = .mk i [] := fun h => by
    cases h with
    | self => rfl
    | kid hj _ => cases hj
  intro k hk
  cases hk with
  | self => exact h1
  | kid hj hk =>
    rcases List.mem_cons.mp hj with rfl | hj
    · cases hk with
      | self => exact h2
      | kid hj hk =>
        rcases List.mem_cons.mp hj with rfl | hj
        · cases hk with
          | self => exact h4
          | kid hj hk =>
            rcases List.mem_cons.mp hj with rfl | hj
            · rw [leaf hk]; exact h5
            · rw [List.mem_singleton.mp hj] at hk
              rw [leaf hk]; exact h6
        · rw [List.mem_singleton.mp hj] at hk
          rw [leaf hk]; exact h7
    · rw [List.mem_singleton.mp hj] at hk
      rw [leaf hk]; exact h3

theorem withCall_unlearnt (env : Env) : Unlearnt env withCall := by
  refine withCall_parts ?_ ?_ ?_ ?_ ?_ ?_ ?_
  all_goals
    refine ⟨?_, fun ev h => ?_⟩
    · simp [Unnamed, withCall, nd, nm, Node.kind, Node.info, Node.field, Node.kids, Node.fld]
    · cases ev <;> simp [Event.teaches, Event.directive]
      all_goals
        simp [EmitsIn, AssignsTo, InSlice, withCall, nd, nm, Node.kind, Node.info, Node.field, Node.fields, Node.kids, Node.fld] at h

/-- It defines `b`, but for itself only. -/
theorem withCall_silent (env : Env) : (∀ k, In k withCall → Spec.Silent env k) ∧ Defines withCall "b" := by
  have none : ∀ k x, In k withCall → ¬ Escapes env false k x := by
    intro k x hk h
    induction h with
    | @own k x _ hd hs =>
      refine withCall_parts (P := fun k => Defines k x → (Scoped k.kind → IsFunction k) → False) ?_ ?_ ?_ ?_ ?_ ?_ ?_ k hk hd hs
      · intro _ hs
        obtain ⟨y, h | h⟩ := hs trivial <;> cases h
      all_goals
        intro hd _
        simp [Defines, DefinesFunction, nd, nm, Node.kind, Node.info] at hd
    | part _ hj _ _ _ _ ih => exact ih (In.trans (.kid hj (.self _)) hk)
    | again _ hc hb hj _ ih => exact ih (In.trans (In.trans (.kid hj (.self _)) (.kid (List.mem_filter.mp hb).1 (.self _))) hk)
  refine ⟨fun k hk => ⟨fun m hm => withCall_unlearnt env m (In.trans hm hk), fun x => none k x hk⟩, ?_⟩
  refine .inr (.inr (.inr (.inr (.inr (.inr (.inl ⟨.inl rfl, _, .head _, nd .optionalVars (.name "b" .store) 1 [], rfl, .name rfl⟩))))))

/-- Example: the statement `with f(a) as b: pass` is marked. -/
theorem C112_witness : FurtherMarks (Env.make (Config.init 1) exampleHost "a.py" []) (Env.make (Config.init 1) exampleHost "a.py" novmToks) stay (prog [withCall]) ∧
    (Env.make (Config.init 1) exampleHost "a.py" novmToks).noLines = [1] ∧
    requirementWithout [] (prog [withCall]) = some ⟨some ⟨2, 5⟩, some ⟨3, 0⟩⟩ ∧ requirementWithout [1] (prog [withCall]) = some ⟨some ⟨0, 0⟩, some ⟨0, 0⟩⟩ := by
  have plain : ∀ k, In k (prog [withCall]) → k.fields .decoratorList = [] ∧ (¬ ∃ x, k.kind = .exceptHandler x) ∧ (k.fields .items).length < 2 := by
    intro k hk
    cases hk with
    | self => refine ⟨rfl, ?_, by decide⟩; rintro ⟨x, hx⟩; cases hx
    | kid hj hk =>
      rw [List.mem_singleton.mp hj] at hk
      revert k
      refine withCall_parts ?_ ?_ ?_ ?_ ?_ ?_ ?_ <;> (refine ⟨rfl, ?_, by decide⟩; rintro ⟨x, hx⟩; cases hx)
  refine ⟨⟨fun k _ hl => (by cases hl), fun k hk hM _ => ?_, fun k hk d hd => ?_, fun k hk hx => absurd hx (plain k hk).2.1, fun k hk _ hl => ?_⟩, by decide +kernel, by decide +kernel, by decide +kernel⟩
  · cases hk with
    | self => exact absurd hM.1 id
    | kid hj hk =>
      rw [List.mem_singleton.mp hj] at hk
      exact (withCall_silent _).1 k hk
  · rw [(plain k hk).1] at hd; cases hd
  · have := (plain k hk).2.2; omega

/-- `f(`, `g()(),` and `k=y)` on three lines -/
def unnamedSource : Node := prog [st 1 (nd .value .call 1 [nm .func "f" 1, nd .args .call 2 [nd .func .call 2 [nm .func "g" 2]],
  nd .keywords (.keyword (some "k")) 3 [nm .value "y" 3]])]

/-- What is required of it with some lines marked, if `f(k=..)` requires 3.3. -/
def unnamedRequirement (lines : List Nat) : Option Req :=
  let env := { exampleEnv (Config.init 1) with
    noLines := lines, tables := { (exampleEnv (Config.init 1)).tables with kw := fun p => if p = ("f", some "k") then some ⟨none, some ⟨3, 3⟩⟩ else none } }
  match tour env unnamedSource S.init with
  | .error _ => none
  | .ok s =>
    match minimumVersions env s with
    | .error _ => none
    | .ok (_, r) => some r

/-- Why calls as in `f()()` are left out: the function whose arguments they are in is forgotten at them, so marking one reveals a keyword argument. -/
theorem C112_false_unnamed : unnamedRequirement [] = some ⟨some ⟨0, 0⟩, some ⟨0, 0⟩⟩ ∧ unnamedRequirement [2] = some ⟨none, some ⟨3, 3⟩⟩ := by decide +kernel

end Vermin.Props
