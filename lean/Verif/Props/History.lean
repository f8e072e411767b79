import Verif.Lemmas.History
import Verif.Props.Append
import Verif.Props.Counts
import Verif.Props.Members
import Verif.Lemmas.Enum
/-
C108: programs that import modules and functions are not said to run where these do not exist.
-/
namespace Vermin.Props
open Vermin Vermin.Py Vermin.Spec

/-! ### The rules -/

theorem std_mod (c : Config) (k : String) : (Tables.std c).mod k = (Dict.get? Data.modReqs k).map (·.eval c.backports) := by
  simp only [Tables.std, get?_dictDisplay_eq C13_modules_nodup]
theorem std_mem (c : Config) (k : String) : (Tables.std c).mem k = (Dict.get? Data.memReqs k).map (·.eval c.backports) := by
  simp only [Tables.std, get?_dictDisplay_eq C13_members_nodup]

theorem std_kw (c : Config) (f k : String) : (Tables.std c).kw (f, some k) = (Dict.get? Data.kwReqs (f, k)).map (·.eval c.backports) := by
  simp only [Tables.std, get?_dictDisplay_eq C13_kwargs_nodup]

/-! ### Programs -/

section
variable (c : Config) (h : Host) (path : String) (toks : List Tok) (ho : SetOrder (Env.make c h path toks)) (p : Node) {m : Req}
  (hm : detectSource c h path p toks = .ok m) (hp : p.kind = .module) {l₁ l₂ : List Node} {k n : Node} (hk : p.kids = l₁ ++ k :: l₂)
  (hs : Seen (Env.make c h path toks) p n k) (hn : ¬ Marked (Env.make c h path toks) n)
include ho hm hp hk hs hn

/-- **C108.** The minimum versions detected for a program satisfy the rule for every module that it uses (`Spec.UsesModule`: imports, also by another name,
and dotted names) in a place that is looked at. -/
theorem C108_module {x : String} (hu : UsesModule (Env.make c h path toks) p l₁ n x) (hd : Undefined p x) (he : c.isExcluded x = false) {r : Req}
    (hr : (Tables.std c).mod x = some r) {v : Ver} (hv : Satisfies v m) : Satisfies v r := by
  obtain ⟨_, s, s', ht, hmin⟩ := (detect_ok_iff c h path p toks m).mp hm
  exact ((C32_satisfies hmin v).mp hv).2 r (C59_required ho ht hp hk hs hn hu hd he hr)

/-- **C108.** And for every member that it uses (`Spec.Uses`). -/
theorem C108_member {x : String} (hu : Uses (Env.make c h path toks) p l₁ n x) (hd : Undefined p x) (he : c.isExcluded x = false) {r : Req}
    (hr : (Tables.std c).mem x = some r) {v : Ver} (hv : Satisfies v m) : Satisfies v r := by
  obtain ⟨_, s, s', ht, hmin⟩ := (detect_ok_iff c h path p toks m).mp hm
  exact ((C32_satisfies hmin v).mp hv).2 r (C60_required ho ht hp hk hs hn hu hd he hr)

/-- **C108.** A program that uses a module that came with Python 3.n is said to run with Python 3.n and later only, if no backports are chosen. -/
theorem C108_added (hb : c.backports = []) {x : String} {i : Nat} (hi : (x, i) ∈ addedModules) (hu : UsesModule (Env.make c h path toks) p l₁ n x) (hd : Undefined p x)
    (he : c.isExcluded x = false) {v : Ver} (hv : Satisfies v m) : v.major = 3 ∧ ⟨3, i⟩ ≤ v := by
  have hr := of_decide_eq_true (List.all_eq_true.mp rules_added _ hi)
  rcases C108_module c h path toks ho p hm hp hk hs hn hu hd he (by rw [std_mod, hb]; exact hr) hv with ⟨_, _, e, _⟩ | ⟨h3, w, e, hw⟩
  · cases e
  · cases e; exact ⟨h3, hw⟩

/-- **C108.** The same for members. -/
theorem C108_members (hb : c.backports = []) {x y : String} {i : Nat} (hi : (x, y, i) ∈ addedMembers) (hu : Uses (Env.make c h path toks) p l₁ n (x ++ "." ++ y))
    (hd : Undefined p (x ++ "." ++ y)) (he : c.isExcluded (x ++ "." ++ y) = false) {v : Ver} (hv : Satisfies v m) : v.major = 3 ∧ ⟨3, i⟩ ≤ v := by
  have hr := of_decide_eq_true (List.all_eq_true.mp rules_members _ hi)
  rcases C108_member c h path toks ho p hm hp hk hs hn hu hd he (by rw [std_mem, hb]; exact hr) hv with ⟨_, _, e, _⟩ | ⟨h3, w, e, hw⟩
  · cases e
  · cases e; exact ⟨h3, hw⟩

/-- **C108.** A program that uses a module that Python 3 dropped is said to run with Python 2 only. -/
theorem C108_dropped {x : String} (hi : x ∈ droppedModules) (hu : UsesModule (Env.make c h path toks) p l₁ n x) (hd : Undefined p x) (he : c.isExcluded x = false) {v : Ver}
    (hv : Satisfies v m) : v.major = 2 := by
  have hr := List.all_eq_true.mp rules_dropped _ hi
  cases hg : Dict.get? Data.modReqs x with
  | none => rw [hg] at hr; cases hr
  | some q =>
    rw [hg] at hr
    cases q with
    | const r =>
      have hr : r.py3.isNone = true := hr
      rcases C108_module c h path toks ho p hm hp hk hs hn hu hd he (r := r) (by rw [std_mod, hg]; rfl) hv with ⟨h2, _⟩ | ⟨_, w, e, _⟩
      · exact h2
      · rw [e] at hr; cases hr
    | _ => cases hr

/-- **C108.** A program that uses one by its new name is said to run with Python 3 only, if no backports are chosen. -/
theorem C108_renamed (hb : c.backports = []) {x : String} (hi : x ∈ renamedModules) (hu : UsesModule (Env.make c h path toks) p l₁ n x) (hd : Undefined p x)
    (he : c.isExcluded x = false) {v : Ver} (hv : Satisfies v m) : v.major = 3 := by
  have hr := List.all_eq_true.mp rules_renamed _ hi
  cases hg : (Dict.get? Data.modReqs x).map (·.eval []) with
  | none => rw [hg] at hr; cases hr
  | some r =>
    rw [hg] at hr
    have hr : r.py2.isNone = true := hr
    rcases C108_module c h path toks ho p hm hp hk hs hn hu hd he (r := r) (by rw [std_mod, hb]; exact hg) hv with ⟨_, w, e, _⟩ | ⟨h3, _⟩
    · rw [e] at hr; cases hr
    · exact h3

/-- **C108.** The same for members that Python 3 dropped. -/
theorem C108_dropped_members {x : String} (hi : x ∈ droppedMembers) (hu : Uses (Env.make c h path toks) p l₁ n x) (hd : Undefined p x) (he : c.isExcluded x = false)
    {v : Ver} (hv : Satisfies v m) : v.major = 2 := by
  have hr := List.all_eq_true.mp rules_dropped_members _ hi
  cases hg : Dict.get? Data.memReqs x with
  | none => rw [hg] at hr; cases hr
  | some q =>
    rw [hg] at hr
    cases q with
    | const r =>
      have hr : r.py3.isNone = true := hr
      rcases C108_member c h path toks ho p hm hp hk hs hn hu hd he (r := r) (by rw [std_mem, hg]; rfl) hv with ⟨h2, _⟩ | ⟨_, w, e, _⟩
      · exact h2
      · rw [e] at hr; cases hr
    | _ => cases hr

/-- **C108.** A program that uses a module of both is said to run with the versions of Python 2 and of Python 3 that have it only. -/
theorem C108_shared (hb : c.backports = []) {x : String} {i j : Nat} (hi : (x, i, j) ∈ sharedModules) (hu : UsesModule (Env.make c h path toks) p l₁ n x)
    (hd : Undefined p x) (he : c.isExcluded x = false) {v : Ver} (hv : Satisfies v m) : (v.major = 2 ∧ ⟨2, i⟩ ≤ v) ∨ (v.major = 3 ∧ ⟨3, j⟩ ≤ v) := by
  have hr := of_decide_eq_true (List.all_eq_true.mp rules_shared _ hi)
  rcases C108_module c h path toks ho p hm hp hk hs hn hu hd he (by rw [std_mod, hb]; exact hr) hv with ⟨h2, w, e, hw⟩ | ⟨h3, w, e, hw⟩
  · cases e; exact .inl ⟨h2, hw⟩
  · cases e; exact .inr ⟨h3, hw⟩

/-- **C108.** The same for members. -/
theorem C108_shared_members (hb : c.backports = []) {x : String} {i j : Nat} (hi : (x, i, j) ∈ sharedMembers) (hu : Uses (Env.make c h path toks) p l₁ n x)
    (hd : Undefined p x) (he : c.isExcluded x = false) {v : Ver} (hv : Satisfies v m) : (v.major = 2 ∧ ⟨2, i⟩ ≤ v) ∨ (v.major = 3 ∧ ⟨3, j⟩ ≤ v) := by
  have hr := of_decide_eq_true (List.all_eq_true.mp rules_shared_members _ hi)
  rcases C108_member c h path toks ho p hm hp hk hs hn hu hd he (by rw [std_mem, hb]; exact hr) hv with ⟨h2, w, e, hw⟩ | ⟨h3, w, e, hw⟩
  · cases e; exact .inl ⟨h2, hw⟩
  · cases e; exact .inr ⟨h3, hw⟩

omit ho in
/-- **C108.** The minimum versions satisfy the rule for every keyword argument that is passed to what stands for a function (`Spec.StandsFor`). -/
theorem C108_argument (hnm : Named n) {e kw : Node} {a : String} (hpass : Passes n e kw (some a)) {g : String}
    (hu : StandsFor (Env.make c h path toks) p l₁ e g) (hd : Undefined p g) (he : g ++ "(" ++ a ++ ")" ∉ c.exclusions) {r : Req}
    (hr : (Tables.std c).kw (g, some a) = some r) {v : Ver} (hv : Satisfies v m) : Satisfies v r := by
  obtain ⟨_, s, s', ht, hmin⟩ := (detect_ok_iff c h path p toks m).mp hm
  exact ((C32_satisfies hmin v).mp hv).2 r (.kwarg (C37_passed ht hp hk hs hn hnm hpass hu hd he) hr)

omit ho in
/-- **C108.** A program that passes a keyword argument that came with Python 3.n is said to run with Python 3.n and later only, if no backports are chosen. -/
theorem C108_arguments (hb : c.backports = []) {g a : String} {i : Nat} (hi : (g, a, i) ∈ addedArguments) (hnm : Named n) {e kw : Node}
    (hpass : Passes n e kw (some a)) (hu : StandsFor (Env.make c h path toks) p l₁ e g) (hd : Undefined p g) (he : g ++ "(" ++ a ++ ")" ∉ c.exclusions)
    {v : Ver} (hv : Satisfies v m) : v.major = 3 ∧ ⟨3, i⟩ ≤ v := by
  have hr := of_decide_eq_true (List.all_eq_true.mp rules_arguments _ hi)
  rcases C108_argument c h path toks p hm hp hk hs hn hnm hpass hu hd he (by rw [std_kw, hb]; exact hr) hv with ⟨_, _, e, _⟩ | ⟨h3, w, e, hw⟩
  · cases e
  · cases e; exact ⟨h3, hw⟩
end

/-- `import tomllib`, `import functools as f` and `f.cache` -/
def tomlProg : Node := prog [nd .body .import 1 [nd .names (.alias "tomllib" none) 1 []], nd .body .import 2 [nd .names (.alias "functools" (some "f")) 2 []],
  st 3 (nd .value (.attribute "cache") 3 [nm .value "f" 3])]

/-- What is required of a program -/
def requiredIn (env : Env) (n : Node) : Option Req :=
  match tour env n S.init with
  | .error _ => none
  | .ok s =>
    match minimumVersions env s with
    | .error _ => none
    | .ok (_, r) => some r

theorem detect_requiredIn {c : Config} {h : Host} {path : String} {n : Node} {toks : List Tok} {m : Req} (hb : badPath c path = false)
    (hr : requiredIn (Env.make c h path toks) n = some m) : detectSource c h path n toks = .ok m := by
  refine (detect_ok_iff c h path n toks m).mpr ⟨hb, ?_⟩
  unfold requiredIn at hr
  cases ht : tour (Env.make c h path toks) n S.init with
  | error e => rw [ht] at hr; cases hr
  | ok s =>
    rw [ht] at hr
    dsimp only at hr
    cases hv : minimumVersions (Env.make c h path toks) s with
    | error e => rw [hv] at hr; cases hr
    | ok q =>
      rw [hv] at hr
      cases hr
      exact ⟨s, q.1, rfl, hv⟩

def writtenKw (c : Config) : String × Option String → Option Req
  | (f, some k) => (Dict.get? Data.kwReqs (f, k)).map (·.eval c.backports)
  | (_, none) => none

theorem std_kws (c : Config) : (Tables.std c).kw = writtenKw c := by
  funext ⟨f, k⟩
  cases k with
  | none => rfl
  | some k => exact std_kw c f k

/-- The environment with tables that are looked up as they are written -/
def writtenEnv (c : Config) (h : Host) (path : String) (toks : List Tok) : Env :=
  { Env.make c h path toks with
    tables := { Tables.std c with
      mod := fun k => (Dict.get? Data.modReqs k).map (·.eval c.backports)
      mem := fun k => (Dict.get? Data.memReqs k).map (·.eval c.backports)
      kw := writtenKw c } }

theorem tables_eta (t : Tables) {f g : String → Option Req} {k : String × Option String → Option Req} (h1 : t.mod = f) (h2 : t.mem = g) (h3 : t.kw = k) :
    t = { t with mod := f, mem := g, kw := k } := by subst h1 h2 h3; rfl
theorem env_eta (e : Env) {t : Tables} (h : e.tables = t) : e = { e with tables := t } := by subst h; rfl

theorem env_written (c : Config) (h : Host) (path : String) (toks : List Tok) : Env.make c h path toks = writtenEnv c h path toks :=
  env_eta (Env.make c h path toks) (tables_eta (Tables.std c) (funext (std_mod c)) (funext (std_mem c)) (std_kws c))

theorem toml_as {k : Node} {m y : String} (hk : In k tomlProg) (h : ImportsAs k m y) : m = "functools" := by
  have : tomlProg.subs.all (fun n => n.kids.all fun a => match n.kind, a.kind with
    | .import, .alias m (some _) => decide (m = "functools")
    | .importFrom _ _, .alias _ (some _) => false | _, _ => true) = true := by decide +kernel
  have := List.all_eq_true.mp this k (mem_subs hk)
  obtain ⟨a, ha, x, h1, ⟨h2, rfl⟩ | ⟨_, h2, _⟩⟩ := h <;> have := List.all_eq_true.mp this a (mem_fields ha).1 <;> rw [h1, h2] at this
  · exact of_decide_eq_true this
  · cases this

/-- Example: a program that uses a module and a member; it requires 3.11, as the theorems say, and the member alone would require 3.9. -/
theorem C108_witness : detectSource (Config.init 1) exampleHost "a.py" tomlProg [] = .ok ⟨none, some ⟨3, 11⟩⟩ ∧
    detectSource (Config.init 1) exampleHost "a.py" (prog (tomlProg.kids.drop 1)) [] = .ok ⟨none, some ⟨3, 9⟩⟩ ∧
    ("tomllib", 11) ∈ addedModules ∧ ("functools", "cache", 9) ∈ addedMembers ∧
    (∃ l₁ k l₂, tomlProg.kids = l₁ ++ k :: l₂ ∧ UsesModule (Env.make (Config.init 1) exampleHost "a.py" []) tomlProg l₁ k "tomllib") ∧
    (∃ l₁ k l₂ n, tomlProg.kids = l₁ ++ k :: l₂ ∧ Seen (Env.make (Config.init 1) exampleHost "a.py" []) tomlProg n k ∧
      ¬ Marked (Env.make (Config.init 1) exampleHost "a.py" []) n ∧
      Uses (Env.make (Config.init 1) exampleHost "a.py" []) tomlProg l₁ n ("functools" ++ "." ++ "cache")) ∧
    Undefined tomlProg "tomllib" ∧ Undefined tomlProg ("functools" ++ "." ++ "cache") ∧ (Config.init 1).isExcluded "tomllib" = false ∧ (Config.init 1).backports = [] := by
  have hm : ∀ n, ¬ Marked (Env.make (Config.init 1) exampleHost "a.py" []) n := fun n ⟨_, h⟩ => nomatch (show n.line ∈ ([] : List Nat) from h)
  refine ⟨detect_requiredIn rfl ?_, detect_requiredIn rfl ?_, by decide +kernel, by decide +kernel, ⟨[], _, _, rfl, .import (.import rfl (List.mem_cons_self ..) rfl)⟩,
    ⟨_ :: _ :: [], _, [], _, rfl, seen_at 0 rfl rfl (.self _), hm _,
      .renamed (y := "f") (m := "functools") (bs := ["cache"]) (chain_attr_nd ..).path ⟨fun k m hk h => toml_as hk h, _, .tail _ (.head _), ⟨_, .head _, _, rfl, .inl ⟨rfl, rfl⟩⟩, nofun⟩⟩,
    undefined_of (by decide +kernel), undefined_of (by decide +kernel), by decide +kernel, rfl⟩
  · rw [env_written]
    decide +kernel
  · rw [env_written]
    decide +kernel

/-- `print(x, flush=y)` -/
def flushProg : Node := prog [st 1 (nd .value .call 1 [nm .func "print", nm .args "x", nd .keywords (.keyword (some "flush")) 1 [nm .value "y"]])]

/-- Example: a keyword argument; without it, the program would be said to run with Python 3.0. -/
theorem C108_witness_argument : detectSource (Config.init 1) exampleHost "a.py" flushProg [] = .ok ⟨none, some ⟨3, 3⟩⟩ ∧ ("print", "flush", 3) ∈ addedArguments ∧
    (∃ l₁ k l₂ n e kw, flushProg.kids = l₁ ++ k :: l₂ ∧ Seen (Env.make (Config.init 1) exampleHost "a.py" []) flushProg n k ∧ Named n ∧
      Passes n e kw (some "flush") ∧ StandsFor (Env.make (Config.init 1) exampleHost "a.py" []) flushProg l₁ e "print") ∧
    Undefined flushProg "print" := by
  refine ⟨detect_requiredIn rfl ?_, by decide +kernel, ⟨[], _, [], _, nm .func "print", nd .keywords (.keyword (some "flush")) 1 [nm .value "y"], rfl, seen_at 0 rfl rfl (.self _), named_of (by decide +kernel), ?_, ?_⟩,
    undefined_of (by decide +kernel)⟩
  · rw [env_written]
    decide +kernel
  · exact ⟨rfl, rfl, .tail _ (.tail _ (.head _)), rfl⟩
  · exact .plain (a := "print") (bs := []) (.inl ⟨.load, rfl, rfl⟩) (ident _ (by decide)) nofun (notAs_of (by decide +kernel)) (notFrom_of (by decide +kernel))
      (notFrom_of (by decide +kernel)) (unassigned_of (by decide +kernel))

/-- There are no rules for others that were dropped: uses of `xrange` or `raw_input` go unnoticed. -/
theorem C108_false_forgotten (c : Config) {x : String} (hx : x ∈ forgottenMembers) : (Tables.std c).mem x = none ∧ (Tables.std c).mod x = none := by
  have := List.all_eq_true.mp rules_forgotten _ hx
  rw [Bool.and_eq_true, Option.isNone_iff_eq_none, Option.isNone_iff_eq_none] at this
  rw [std_mem, std_mod, this.1, this.2]
  exact ⟨rfl, rfl⟩

/-- Where a rule is wrong: `dummy_threading` was in Python 3 up to 3.8, but no version of Python 3 is said to have it. -/
theorem C108_false_dummy_threading (c : Config) : (Tables.std c).mod "dummy_threading" = some ⟨some ⟨2, 3⟩, none⟩ := by
  rw [std_mod]
  have : (match Dict.get? Data.modReqs "dummy_threading" with | some (.const r) => some r | _ => none) = some ⟨some ⟨2, 3⟩, none⟩ := by decide +kernel
  cases hg : Dict.get? Data.modReqs "dummy_threading" with
  | none => rw [hg] at this; cases this
  | some q =>
    rw [hg] at this
    cases q with
    | const r => exact this
    | _ => cases this

end Vermin.Props
