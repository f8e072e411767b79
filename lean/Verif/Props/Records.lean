import Verif.Lemmas.Records
import Verif.Props.Settled
/-
Directives, typecodes, arguments for encodings and error handlers, and decorators (C71).
-/
namespace Vermin.Props
open Vermin Vermin.Py Vermin.Spec Vermin.V

/-! ### C71: directives, typecodes, encodings, error handlers and decorators -/

/-- **C71.** What gives rise to a record (`Spec.Gives`) is recorded: directives of strings given to `strftime` and of bytes, typecodes of arrays,
error handlers and encodings given to functions that deal with them, and decorators of functions; wherever it is in a statement `k` of the program
that is looked at, given the statements `l₁` before. -/
theorem C71_recorded (env : Env) (p k n : Node) (l₁ l₂ : List Node) (r : Record) (s : S) (h : tour env p S.init = .ok s) (hp : p.kind = .module)
    (hk : p.kids = l₁ ++ k :: l₂) (hr : Seen env p n k) (hm : ¬ Marked env n) (hg : Gives env p l₁ n r) : r.In s := by
  obtain ⟨u, o, hv, rfl⟩ := tour_run h
  have := gives_recorded hp hk hr hm hg hv
  cases r <;> exact this

/-- The requirement that the rules state for what is recorded. -/
inductive RecordRule (env : Env) : Record → Req → Prop
  | strftime {d q} : env.tables.strftime d = some q → RecordRule env (.strftime d) q
  | bytes {d q} : env.tables.bytes d = some q → RecordRule env (.bytes d) q
  | typecode {t q} : env.tables.typecode t = some q → RecordRule env (.typecode t) q
  | errorHandler {x q} : env.tables.errorHandler x = some q → RecordRule env (.errorHandler (.str x)) q
  | encoding {x e q} : (e, q) ∈ env.tables.encodings → EncKey.contains (lowerStr x) e = true → RecordRule env (.encoding (.str x)) q
  | decorator {u q} : env.tables.deco u = some q → RecordRule env (.decorator u) q

/-- So its requirement is one of those the minimum versions are combined from (C32). -/
theorem C71_required (env : Env) (p k n : Node) (l₁ l₂ : List Node) (r : Record) (q : Req) (s : S) (h : tour env p S.init = .ok s) (hp : p.kind = .module)
    (hk : p.kids = l₁ ++ k :: l₂) (hr : Seen env p n k) (hm : ¬ Marked env n) (hg : Gives env p l₁ n r) (hq : RecordRule env r q) : Requires env s q := by
  have := C71_recorded env p k n l₁ l₂ r s h hp hk hr hm hg
  cases hq with
  | strftime hq => exact .strftime this hq
  | bytes hq => exact .bytesDir this hq
  | typecode hq => exact .typecode this hq
  | errorHandler hq => exact .errorHandler this hq
  | encoding h1 h2 => exact .encoding this h1 h2
  | decorator hq => exact .decorator this hq

/-- Conversely, the directives that are recorded are in the program. -/
theorem C71_directives (env : Env) (p : Node) (s : S) (h : tour env p S.init = .ok s) :
    (∀ x ∈ s.strftime, ∃ n f a t d, In n p ∧ n.kind = .call ∧ n.field .func = some f ∧ (f.kind = .attribute "strftime" ∨ f.kind = .attribute "strptime") ∧
      a ∈ n.fields .args ∧ a.kind = .const (.str t) ∧ x = String.ofList [d] ∧ Directive t.toList d) ∧
    ∀ x ∈ s.bytesDirs, ∃ n t d, In n p ∧ n.kind = .const (.bytes t) ∧ x = String.ofList [d] ∧ Directive t.toList d := by
  have hf := C29_findings env p s h
  refine ⟨fun x hx => ?_, fun x hx => ?_⟩
  · obtain ⟨n, hn, f, a, t, h1, h2, h3, h4, h5, d, h6, h7⟩ := hf.2.2.2.2.1 x hx
    exact ⟨n, f, a, t, d, hn, h1, h2, h3, h4, h5, h6, h7⟩
  · obtain ⟨n, hn, t, h1, d, h2, h3⟩ := hf.2.2.2.2.2.1 x hx
    exact ⟨n, t, d, hn, h1, h2, h3⟩

/-- Directives: `%d`, `%-5d` and `%5` (a digit) are matches; there is none in `%%`. -/
theorem C71_match : Directive "a %-5d".toList 'd' ∧ Directive "%5%".toList '5' ∧ ∀ d, ¬ Directive "%% %".toList d := by
  have key : ∀ (t : String) (d : Char), Directive t.toList d ↔ String.ofList [d] ∈ directives t := fun t d => by
    rw [mem_directives]
    refine ⟨fun h => ⟨d, rfl, h⟩, ?_⟩
    rintro ⟨e, he, h⟩
    have := congrArg String.toList he
    simp at this
    exact this ▸ h
  refine ⟨(key _ _).mpr (by decide +kernel), (key _ _).mpr (by decide +kernel), fun d h => ?_⟩
  have : directives "%% %" = [] := by decide +kernel
  rw [key, this] at h
  cases h

/-- Rules for functions of `codecs`, and one for a decorator -/
def recordsEnv : Env := { exampleEnv (Config.init 1) with
  tables := { (exampleEnv (Config.init 1)).tables with
    errorsIndex := fun f => if f = "codecs.encode" then some 2 else none
    encodingsIndices := fun f => if f = "codecs.encode" then some [1] else none
    deco := fun u => if u = "functools.cache" then some ⟨none, some ⟨3, 9⟩⟩ else none
    strftime := fun d => if d = "G" then some ⟨none, some ⟨3, 6⟩⟩ else none } }

/-- The program
```
from codecs import encode
import array as arr
import functools as ft
def f():
  x.strftime("%-G")
  b"%5b"
  arr.array("q")
  encode("x", "utf8", errors="replace")
@ft.cache
def g(): pass
``` -/
def records : Node := prog [
  nd .body (.importFrom (some "codecs") 0) 1 [nd .names (.alias "encode" none) 1 []],
  nd .body .import 2 [nd .names (.alias "array" (some "arr")) 2 []],
  nd .body .import 3 [nd .names (.alias "functools" (some "ft")) 3 []],
  nd .body (.functionDef "f") 4 [nd .args .arguments 4 [],
    st 5 (nd .value .call 5 [attr .func "x" "strftime" 5, nd .args (.const (.str "%-G")) 5 []]),
    st 6 (nd .value (.const (.bytes "%5b")) 6 []),
    st 7 (nd .value .call 7 [attr .func "arr" "array" 7, nd .args (.const (.str "q")) 7 []]),
    st 8 (nd .value .call 8 [nm .func "encode" 8, nd .args (.const (.str "x")) 8 [], nd .args (.const (.str "utf8")) 8 [],
      nd .keywords (.keyword (some "errors")) 8 [nd .value (.const (.str "replace")) 8 []]])],
  nd .body (.functionDef "g") 10 [nd .args .arguments 10 [], nd .body .pass 10 [],
    attr .decoratorList "ft" "cache" 9]]

theorem records_run : ∃ s, tour recordsEnv records S.init = .ok s := by
  have : (tour recordsEnv records S.init).toBool = true := by decide +kernel
  cases h : tour recordsEnv records S.init with
  | ok s => exact ⟨s, rfl⟩
  | error e => rw [h] at this; cases this

theorem records_unmarked (n : Node) : ¬ Marked recordsEnv n := fun h => by cases h.2

theorem records_at (i : Nat) {k n : Node} {r : Record} (hk : records.kids[i]? = some k) (hr : Seen recordsEnv records n k)
    (hg : Gives recordsEnv records (records.kids.take i) n r) {s : S} (h : tour recordsEnv records S.init = .ok s) : r.In s :=
  C71_recorded recordsEnv records k n (records.kids.take i) (records.kids.drop (i + 1)) r s h rfl
    (by obtain ⟨hi, rfl⟩ := List.getElem?_eq_some_iff.mp hk; rw [List.getElem_cons_drop, List.take_append_drop]) hr (records_unmarked n) hg

/-- Names of imports in the program -/
theorem records_as {k : Node} {m y : String} (hk : In k records) (h : ImportsAs k m y) : (m, y) = ("array", "arr") ∨ (m, y) = ("functools", "ft") := by
  have : records.subs.all (fun n => n.kids.all fun a => match n.kind, a.kind with
    | .import, .alias m (some y) => decide ((m, y) = ("array", "arr") ∨ (m, y) = ("functools", "ft"))
    | .importFrom _ _, .alias _ (some _) => false | _, _ => true) = true := by decide +kernel
  have := List.all_eq_true.mp this k (mem_subs hk)
  obtain ⟨a, ha, x, h1, ⟨h2, rfl⟩ | ⟨_, h2, _⟩⟩ := h <;> have := List.all_eq_true.mp this a (mem_fields ha).1 <;> rw [h1, h2] at this
  · exact of_decide_eq_true this
  · cases this

theorem records_from {k : Node} {m x : String} (hk : In k records) (h : ImportsFrom k m x) : m = "codecs" := by
  have : records.subs.all (fun n => match n.kind with | .importFrom m _ => m = some "codecs" | _ => true) = true := by decide +kernel
  have := List.all_eq_true.mp this k (mem_subs hk)
  rw [h.1] at this
  injection of_decide_eq_true this

theorem records_arr : RenVar recordsEnv records (records.kids.take 3) "arr" "array" := by
  refine ⟨fun k m hk h => ?_, _, .tail _ (.head _), ⟨_, .head _, _, rfl, .inl ⟨rfl, rfl⟩⟩, nofun⟩
  rcases records_as hk h with h | h <;> injection h with h1 h2
  cases (by decide : "arr" ≠ "ft") h2
theorem records_ft : RenVar recordsEnv records (records.kids.take 4) "ft" "functools" := by
  refine ⟨fun k m hk h => ?_, _, .tail _ (.tail _ (.head _)), ⟨_, .head _, _, rfl, .inl ⟨rfl, rfl⟩⟩, nofun⟩
  rcases records_as hk h with h | h <;> injection h with h1 h2
  cases (by decide : "ft" ≠ "arr") h2
theorem records_encode : FromVar recordsEnv records (records.kids.take 3) "encode" "codecs" :=
  ⟨ident _ (by decide), by decide, fun _ _ hk h => records_from hk h, _, .head _, ⟨rfl, _, .head _, _, rfl⟩, nofun⟩

theorem directive_of {t : String} {d : Char} (h : String.ofList [d] ∈ directives t) : Directive t.toList d := by
  obtain ⟨e, he, h⟩ := mem_directives.mp h
  have := congrArg String.toList he
  simp at this
  exact this ▸ h

/-- Every kind of record is made for the program, and the requirements of `%G` and of `functools.cache` are among those combined. -/
theorem C71_witness : ∃ s, tour recordsEnv records S.init = .ok s ∧ "G" ∈ s.strftime ∧ "b" ∈ s.bytesDirs ∧ "q" ∈ s.typecodes ∧
    Const.str "replace" ∈ s.codecsErr ∧ Const.str "utf8" ∈ s.codecsEnc ∧ "functools.cache" ∈ s.userFuncDecos ∧
    Requires recordsEnv s ⟨none, some ⟨3, 6⟩⟩ ∧ Requires recordsEnv s ⟨none, some ⟨3, 9⟩⟩ := by
  obtain ⟨s, hs⟩ := records_run
  have hG := records_at 3 rfl (seen_at 1 rfl rfl (seen_at 0 rfl rfl (.self _)))
    (.strftime (d := 'G') rfl rfl (.inl rfl) (.head _) rfl (directive_of (by decide +kernel))) hs
  have hc : Record.In (.decorator "functools.cache") s := records_at 4 rfl (.self _)
    (.decorator ⟨_, .inl rfl⟩ (.head _) nofun (.renamed (bs := ["cache"]) (chain_attr_nd ..) records_ft)
      (fun _ => ⟨notFrom_of (by decide +kernel), notAs_of (by decide +kernel)⟩) (by decide) (undefined_of (by decide +kernel)) (by decide +kernel) (by decide +kernel)) hs
  refine ⟨s, hs, hG, ?_, ?_, ?_, ?_, hc, .strftime hG (by decide +kernel), .decorator hc (by decide +kernel)⟩
  · exact records_at 3 rfl (seen_at 2 rfl rfl (seen_at 0 rfl rfl (.self _))) (.bytes (d := 'b') rfl (directive_of (by decide +kernel))) hs
  · exact records_at 3 rfl (seen_at 3 rfl rfl (seen_at 0 rfl rfl (.self _)))
      (.typecode rfl rfl (.renamed (bs := ["array"]) (chain_attr_nd ..) records_arr) nofun (.head _) rfl) hs
  · exact records_at 3 rfl (seen_at 4 rfl rfl (seen_at 0 rfl rfl (.self _)))
      (.errors (i := 2) rfl rfl (.origin ⟨_, rfl⟩ records_encode) (by decide +kernel) ⟨_, .head _, ⟨_, .head _, rfl⟩, _, rfl, rfl⟩ (by decide +kernel)) hs
  · exact records_at 3 rfl (seen_at 4 rfl rfl (seen_at 0 rfl rfl (.self _)))
      (.encoding rfl rfl (.origin ⟨_, rfl⟩ records_encode) (is := [1]) (by decide +kernel) (.head _) rfl rfl (by decide +kernel)) hs

end Vermin.Props
