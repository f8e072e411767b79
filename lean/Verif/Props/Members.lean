import Verif.Lemmas.Members
import Verif.Props.Records
/-
Modules and members that are used are found (C59, C60).
-/
namespace Vermin.Props
open Vermin Vermin.Py Vermin.Spec Vermin.V

section
variable {env : Env} {p k n : Node} {l₁ l₂ : List Node} {s : S}

/-- **C60.** A member that a part of the program uses (`Spec.Uses`) is found if there is a rule for it, unless it is excluded, the part is marked, or the
program defines something by its name; wherever it is in a statement `k` of the program that is looked at, given the statements `l₁` before. -/
theorem C60_members (ho : SetOrder env) (h : tour env p S.init = .ok s) (hp : p.kind = .module) (hk : p.kids = l₁ ++ k :: l₂) (hr : Seen env p n k)
    (hm : ¬ Marked env n) {x : String} (hu : Uses env p l₁ n x) (hd : Undefined p x) (he : env.cfg.isExcluded x = false)
    (hrule : (env.tables.mem x).isSome = true) : x ∈ s.members := by
  obtain ⟨u, o, hv, rfl⟩ := tour_run h
  have hl := (visit_traced env Anything p p (keeps_anything env p)).learnt (learnt_init env p) hv
  exact List.mem_filter.mpr ⟨(uses_place hp hk hr hm hd he hv).1 hu hrule, kept hl ho hd⟩

/-- **C59.** A module that a part of the program uses (`Spec.UsesModule`) is found, under the same conditions. -/
theorem C59_modules (ho : SetOrder env) (h : tour env p S.init = .ok s) (hp : p.kind = .module) (hk : p.kids = l₁ ++ k :: l₂) (hr : Seen env p n k)
    (hm : ¬ Marked env n) {x : String} (hu : UsesModule env p l₁ n x) (hd : Undefined p x) (he : env.cfg.isExcluded x = false) : x ∈ s.modules := by
  obtain ⟨u, o, hv, rfl⟩ := tour_run h
  have hl := (visit_traced env Anything p p (keeps_anything env p)).learnt (learnt_init env p) hv
  exact List.mem_filter.mpr ⟨(uses_place hp hk hr hm hd he hv).2 hu, kept hl ho hd⟩

/-- So the requirement that the rules state for it is one of those the minimum versions are combined from (C32). -/
theorem C60_required (ho : SetOrder env) (h : tour env p S.init = .ok s) (hp : p.kind = .module) (hk : p.kids = l₁ ++ k :: l₂) (hr : Seen env p n k)
    (hm : ¬ Marked env n) {x : String} (hu : Uses env p l₁ n x) (hd : Undefined p x) (he : env.cfg.isExcluded x = false) {q : Req}
    (hrule : env.tables.mem x = some q) : Requires env s q :=
  .member (C60_members ho h hp hk hr hm hu hd he (by rw [hrule]; rfl)) hrule

/-- The same for modules -/
theorem C59_required (ho : SetOrder env) (h : tour env p S.init = .ok s) (hp : p.kind = .module) (hk : p.kids = l₁ ++ k :: l₂) (hr : Seen env p n k)
    (hm : ¬ Marked env n) {x : String} (hu : UsesModule env p l₁ n x) (hd : Undefined p x) (he : env.cfg.isExcluded x = false) {q : Req}
    (hrule : env.tables.mod x = some q) : Requires env s q :=
  .module (C59_modules ho h hp hk hr hm hu hd he) hrule

/-- **C37 (keyword arguments).** A keyword argument of a call of what stands for the function `g` (`Spec.StandsFor`) is found with `g`, wherever the call
is in a statement `k` of the program that is looked at, given the statements `l₁` before; unless it is excluded, the call is marked, or the program
defines something by the name. It is assumed that the call contains no call of something that is neither a name nor an attribute
(see `C37_false_unnamed`). -/
theorem C37_passed (h : tour env p S.init = .ok s) (hp : p.kind = .module) (hk : p.kids = l₁ ++ k :: l₂) (hr : Seen env p n k) (hm : ¬ Marked env n)
    (hn : Named n) {e kw : Node} {a : Option String} (hpass : Passes n e kw a) {g : String} (hs : StandsFor env p l₁ e g) (hd : Undefined p g)
    (hx : g ++ "(" ++ a.getD "None" ++ ")" ∉ env.cfg.exclusions) : (g, a) ∈ s.kwargs := by
  replace hx := kw_kept hx
  obtain ⟨u, o, hv, rfl⟩ := tour_run h
  obtain ⟨a', b', h1, _, h2, h3⟩ := place_run hp hk hv
  obtain ⟨c, d, _, h5, h6, h7⟩ := seen_learnt (keeps_facts env p l₁) hr h1 h2
  have hP := keeps_facts env p l₁
  have hdot : ∀ (m a : String) (bs : List String), dotted [some m, some (dottedText a bs)] = dottedText m (a :: bs) := by
    intro m a bs
    have h1 : ∀ (bs : List String) (x y : String), bs.foldl (fun t b => t ++ "." ++ b) (x ++ y) = x ++ bs.foldl (fun t b => t ++ "." ++ b) y := by
      intro bs
      induction bs with
      | nil => intro x y; rfl
      | cons b bs ih => intro x y; rw [List.foldl_cons, List.foldl_cons, ← ih]; simp [String.append_assoc]
    rw [show [some m, some (dottedText a bs)] = some m :: [dottedText a bs].map some from rfl, dotted_text]
    unfold dottedText
    rw [List.foldl_cons, List.foldl_cons, List.foldl_nil, h1]
  have hsp : ∀ {x : String} {bs : List String}, Unrenamed p x → ∀ {u : S} {f : String}, Known env (FactsAt env p l₁) p n u →
      (bs = [] ∧ f = x) ∨ f = dottedText (resolveModuleName u.moduleAs x) bs → f = dottedText x bs := by
    intro x bs hun u f hu hf
    rcases hf with ⟨rfl, rfl⟩ | rfl
    · rfl
    · rw [unrenamed hun hu.renames]
  have key : (g, a) ∈ d.kwargs := by
    cases hs with
    | plain hnm ha hb hun hfa hff hva =>
      refine kw_result hP hn hm hpass hnm (fun u w hu hw f hf => ?_) hd hx h5 h6
      rw [hsp hun hu hf]
      exact target_plain ha hb hw.toLearnt hfa hff hva (dottedText_ne ha hb)
    | origin hnm hb hun hfr hff =>
      refine kw_result hP hn hm hpass hnm (fun u w hu hw f hf => ?_) hd hx h5 h6
      rw [hsp hun hu hf]
      unfold kwTarget
      rw [splitDots_text hfr.1 hb, List.headD_cons]
      have ho := hw.known.origins _ _ hfr
      rename_i x m bs
      cases bs with
      | nil =>
        rw [show dottedText x [] = x from rfl, ho]
        exact hdot m x []
      | cons b bs =>
        rw [noOrigin (hff nofun) (dottedText_ne hfr.1 hb) hw.toLearnt, ho]
        exact hdot _ _ _
    | @renamed y x as bs hc hrv ha hall hfa hff hva =>
      refine kw_result hP hn hm hpass (.inr hc) (fun u w hu hw f hf => ?_) hd hx h5 h6
      have hbs := path_ne hc
      have hfe : f = dottedText x (as ++ bs) := by
        rcases hf with ⟨h, _⟩ | rfl
        · exact absurd h hbs
        · unfold resolveModuleName
          rw [hu.known.renames _ _ hrv, Option.getD_some, dottedText_append]
      rw [hfe]
      exact target_plain ha hall hw.toLearnt hfa hff hva (dottedText_ne ha hall)
    | «variable» hnm hi hb hun hfx hff hvv hfy hye =>
      refine kw_result hP hn hm hpass hnm (fun u w hu hw f hf => ?_) hd hx h5 h6
      rw [hsp hun hu hf]
      unfold kwTarget kwTargetVar
      rw [splitDots_text hi hb, List.headD_cons, noOrigin hff (dottedText_ne hi hb) hw.toLearnt, noOrigin hfx hi.1 hw.toLearnt, hw.known.values _ _ hvv]
      dsimp only
      rw [noOrigin hfy hye hw.toLearnt]
      exact dotted_text _ _
    | @variableFrom x y m bs hnm hi hb hun hfx hff hvv hfy =>
      refine kw_result hP hn hm hpass hnm (fun u w hu hw f hf => ?_) hd hx h5 h6
      rw [hsp hun hu hf]
      unfold kwTarget kwTargetVar
      rw [splitDots_text hi hb, List.headD_cons, noOrigin hff (dottedText_ne hi hb) hw.toLearnt, noOrigin hfx hi.1 hw.toLearnt, hw.known.values _ _ hvv]
      dsimp only
      rw [hw.known.origins _ _ hfy]
      exact dotted_text m (y :: bs)
    | @value k a b bs hb hsp hk ha hbs hfa hff hva =>
      refine kw_spelt hP hn hm hpass (.inr ⟨b, hb⟩) (fun u w hu hw f hf => ?_) hd hx h5 h6
      have hfe : f = dottedText a bs := by
        rcases hf with ⟨c, hf⟩ | ⟨_, full, hr, hf⟩
        · rw [hb] at hf; cases hf
        · rw [hr.spelt b k a bs hb hsp, if_neg hk, fullText_text] at hf
          exact hf
      rw [hfe]
      exact target_plain ha hbs hw.toLearnt hfa hff hva (dottedText_ne ha hbs)
    | @literal t b hlit hb hft hff hvt =>
      obtain ⟨v, c, hkb, _, _, _, _, hlc, _⟩ := id hlit
      refine kw_spelt hP hn hm hpass (.inr ⟨b, hkb⟩) (fun u w hu hw f hf => ?_) hd hx h5 h6
      have hfe : f = dottedText t [b] := by
        rcases hf with ⟨c, hf⟩ | ⟨_, full, hr, hf⟩
        · rw [hkb] at hf; cases hf
        · rw [hr.literal t b hlit] at hf
          exact hf.trans (fullText_text t [b])
      have ht : Identifier t := by cases hlc <;> exact ident _ (by decide)
      have hbs : ∀ x ∈ [b], Identifier x := fun x hx => by rw [List.mem_singleton.mp hx]; exact hb
      rw [hfe]
      exact target_plain ht hbs hw.toLearnt hft hff hvt (dottedText_ne ht hbs)
  exact h3.kwargs (h7.kwargs key)
end

/-- Rules for the members in the program below -/
def membersEnv : Env := { exampleEnv (Config.init 1) with
  tables := { (exampleEnv (Config.init 1)).tables with
    mod := fun m => if m = "os.path" then some ⟨none, some ⟨3, 4⟩⟩ else none
    mem := fun m => if m ∈ ["open", "long.x", "date", "datetime.date", "datetime.date.min", "datetime.date.today", "open.buffer.peek", "Exc", "RecursionError"]
      then some ⟨none, some ⟨3, 5⟩⟩ else none } }

/-- The program
```
import os as o, long as l
from datetime import date
d = date()
a = open()
b = a.buffer
def f():
  d.today(k=1)
  b.peek
  date.min
  l.x
  o.path
  try: pass
  except Exc: raise g(RecursionError)
``` -/
def members : Node := prog [
  nd .body .import 1 [nd .names (.alias "os" (some "o")) 1 [], nd .names (.alias "long" (some "l")) 1 []],
  nd .body (.importFrom (some "datetime") 0) 2 [nd .names (.alias "date" none) 2 []],
  nd .body .assign 3 [nd .targets (.name "d" .store) 3 [], nd .value .call 3 [nm .func "date" 3]],
  nd .body .assign 4 [nd .targets (.name "a" .store) 4 [], nd .value .call 4 [nm .func "open" 4]],
  nd .body .assign 5 [nd .targets (.name "b" .store) 5 [], attr .value "a" "buffer" 5],
  nd .body (.functionDef "f") 6 [nd .args .arguments 6 [],
    st 7 (nd .value .call 7 [attr .func "d" "today" 7, kwd "k" 7]), st 8 (attr .value "b" "peek" 8), st 9 (attr .value "date" "min" 9), st 10 (attr .value "l" "x" 10),
    st 11 (attr .value "o" "path" 11),
    nd .body .try 12 [nd .body .pass 12 [], nd .handlers (.exceptHandler none) 13 [nm .type "Exc" 13,
      nd .body .raise 13 [nd .exc .call 13 [nm .func "g" 13, nm .args "RecursionError" 13]]]]]]

theorem members_run : ∃ s, tour membersEnv members S.init = .ok s := by
  have : (tour membersEnv members S.init).toBool = true := by decide +kernel
  cases h : tour membersEnv members S.init with
  | ok s => exact ⟨s, rfl⟩
  | error e => rw [h] at this; cases this

theorem members_unmarked (n : Node) : ¬ Marked membersEnv n := fun h => by cases h.2
theorem membersEnv_order : SetOrder membersEnv := fun l => .refl l

theorem members_at (i : Nat) {k n : Node} {x : String} (hk : members.kids[i]? = some k) (hr : Seen membersEnv members n k)
    (hg : Uses membersEnv members (members.kids.take i) n x) (hd : Undefined members x) (he : membersEnv.cfg.isExcluded x = false)
    (hrule : (membersEnv.tables.mem x).isSome = true) {s : S} (h : tour membersEnv members S.init = .ok s) : x ∈ s.members :=
  C60_members membersEnv_order h (l₁ := members.kids.take i) (l₂ := members.kids.drop (i + 1)) rfl
    (by obtain ⟨hi, rfl⟩ := List.getElem?_eq_some_iff.mp hk; rw [List.getElem_cons_drop, List.take_append_drop]) hr (members_unmarked n) hg hd he hrule

theorem members_as {k : Node} {m y : String} (hk : In k members) (h : ImportsAs k m y) : (m, y) = ("os", "o") ∨ (m, y) = ("long", "l") := by
  have : members.subs.all (fun n => n.kids.all fun a => match n.kind, a.kind with
    | .import, .alias m (some y) => decide ((m, y) = ("os", "o") ∨ (m, y) = ("long", "l"))
    | .importFrom _ _, .alias _ (some _) => false | _, _ => true) = true := by decide +kernel
  have := List.all_eq_true.mp this k (mem_subs hk)
  obtain ⟨a, ha, x, h1, ⟨h2, rfl⟩ | ⟨_, h2, _⟩⟩ := h <;> have := List.all_eq_true.mp this a (mem_fields ha).1 <;> rw [h1, h2] at this
  · exact of_decide_eq_true this
  · cases this

theorem members_unrenamed {x : String} (h1 : x ≠ "o") (h2 : x ≠ "l") : Unrenamed members x := by
  intro k m hk h
  rcases members_as hk h with h | h <;> injection h with _ h
  · exact h1 h
  · exact h2 h

theorem members_d : ValVar membersEnv members (members.kids.take 5) "d" "date" :=
  ⟨always_of (callsAt "date") denotes_call (by decide +kernel), _, .tail _ (.tail _ (.head _)), nofun, _, ⟨.inl rfl, rfl, _, .head _, .inl rfl, _, rfl⟩, .call ⟨rfl, rfl⟩⟩
theorem members_a : ValVar membersEnv members (members.kids.take 5) "a" "open" :=
  ⟨always_of (callsAt "open") denotes_call (by decide +kernel), _, .tail _ (.tail _ (.tail _ (.head _))), nofun, _, ⟨.inl rfl, rfl, _, .head _, .inl rfl, _, rfl⟩, .call ⟨rfl, rfl⟩⟩
theorem members_b : ValVar membersEnv members (members.kids.take 5) "b" (dottedText "a" ["buffer"]) := by
  refine ⟨always_of (fun v => v.kind == .attribute "buffer" && (match v.kids with | [w] => w.fld == .value && w.kids.isEmpty && (match w.kind with | .name "a" _ => true | _ => false) | _ => false)) (fun v hv => ?_) (by decide +kernel),
    _, .tail _ (.tail _ (.tail _ (.tail _ (.head _)))), nofun, _, ⟨.inl rfl, rfl, _, .head _, .inl rfl, _, rfl⟩,
    .attr (chain_attr_nd ..) (members_unrenamed (by decide) (by decide))⟩
  rw [Bool.and_eq_true, beq_iff_eq] at hv
  obtain ⟨h1, h2⟩ := hv
  split at h2
  · rename_i w hw
    simp only [Bool.and_eq_true, beq_iff_eq] at h2
    obtain ⟨⟨h3, h4⟩, h5⟩ := h2
    split at h5
    · rename_i c hc
      exact .attr (.one h1 hw h3 hc (List.isEmpty_iff.mp h4)) (members_unrenamed (by decide) (by decide))
    · cases h5
  · cases h2
theorem members_date : FromVar membersEnv members (members.kids.take 5) "date" "datetime" :=
  ⟨ident _ (by decide), by decide, from_of (by decide +kernel), _, .tail _ (.head _), ⟨rfl, _, .head _, _, rfl⟩, nofun⟩
theorem members_l : RenVar membersEnv members (members.kids.take 5) "l" "long" := by
  refine ⟨fun k m hk h => ?_, _, .head _, ⟨_, .tail _ (.head _), _, rfl, .inl ⟨rfl, rfl⟩⟩, nofun⟩
  rcases members_as hk h with h | h <;> injection h with h1 h2
  cases (by decide : "l" ≠ "o") h2
theorem members_o : RenVar membersEnv members (members.kids.take 5) "o" "os" := by
  refine ⟨fun k m hk h => ?_, _, .head _, ⟨_, .head _, _, rfl, .inl ⟨rfl, rfl⟩⟩, nofun⟩
  rcases members_as hk h with h | h <;> injection h with h1 h2
  cases (by decide : "o" ≠ "l") h2

/-- Example: members that are used directly, through imports, through variables, and in handlers. -/
theorem C60_witness_members : ∃ s, tour membersEnv members S.init = .ok s ∧ "open" ∈ s.members ∧ "date" ∈ s.members ∧ "datetime.date" ∈ s.members ∧
    "datetime.date.today" ∈ s.members ∧ "open.buffer.peek" ∈ s.members ∧ "datetime.date.min" ∈ s.members ∧ "long.x" ∈ s.members ∧
    "Exc" ∈ s.members ∧ "RecursionError" ∈ s.members := by
  obtain ⟨s, hs⟩ := members_run
  have hu := fun x (h : (members.subs.map boundAt).contains (some x) = false) => undefined_of (p := members) (x := x) h
  refine ⟨s, hs, ?_, ?_, ?_, ?_, ?_, ?_, ?_, ?_, ?_⟩
  · exact members_at 3 rfl (seen_at 1 rfl rfl (.self _)) (.call ⟨rfl, rfl⟩) (hu _ (by decide +kernel)) (by decide +kernel) (by decide +kernel) hs
  · exact members_at 1 rfl (.self _) (.importName rfl (.head _) rfl (by decide)) (hu _ (by decide +kernel)) (by decide +kernel) (by decide +kernel) hs
  · exact members_at 1 rfl (.self _) (.importFrom (m := "datetime") (x := "date") rfl (.head _) rfl (by decide)) (hu _ (by decide +kernel)) (by decide +kernel) (by decide +kernel) hs
  · exact members_at 5 rfl (seen_at 1 rfl rfl (seen_at 0 rfl rfl (seen_at 0 rfl rfl (.self _)))) (.variableFrom (bs := ["today"]) (chain_attr_nd ..).path (members_unrenamed (by decide) (by decide))
      members_d members_date) (hu _ (by decide +kernel)) (by decide +kernel) (by decide +kernel) hs
  · exact members_at 5 rfl (seen_at 2 rfl rfl (seen_at 0 rfl rfl (.self _))) (.variableTwice (bs := ["peek"]) (chain_attr_nd ..).path (members_unrenamed (by decide) (by decide))
      members_b (ident _ (by decide)) (fun b hb => by cases List.mem_singleton.mp hb; exact ident _ (by decide)) members_a) (hu _ (by decide +kernel)) (by decide +kernel) (by decide +kernel) hs
  · exact members_at 5 rfl (seen_at 3 rfl rfl (seen_at 0 rfl rfl (.self _))) (.origin (bs := ["min"]) (chain_attr_nd ..).path (members_unrenamed (by decide) (by decide))
      members_date (by decide) ⟨hu _ (by decide +kernel), by decide +kernel, _, .tail _ (.head _), nofun, .from rfl⟩) (hu _ (by decide +kernel)) (by decide +kernel) (by decide +kernel) hs
  · exact members_at 5 rfl (seen_at 4 rfl rfl (seen_at 0 rfl rfl (.self _))) (.renamed (bs := ["x"]) (chain_attr_nd ..).path members_l)
      (hu _ (by decide +kernel)) (by decide +kernel) (by decide +kernel) hs
  · exact members_at 5 rfl (seen_at 6 rfl rfl (seen_at 1 rfl rfl (.self _))) (.except rfl rfl (.self _) ⟨_, rfl⟩)
      (hu _ (by decide +kernel)) (by decide +kernel) (by decide +kernel) hs
  · exact members_at 5 rfl (seen_at 6 rfl rfl (seen_at 1 rfl rfl (seen_at 1 rfl rfl (.self _)))) (.raise rfl (.inl rfl) (.kid (.tail _ (.head _)) (.self _)) ⟨_, rfl⟩)
      (hu _ (by decide +kernel)) (by decide +kernel) (by decide +kernel) hs

/-- Example: `o.path` after `import os as o` -/
theorem C59_witness_modules : ∃ s, tour membersEnv members S.init = .ok s ∧ "os.path" ∈ s.modules ∧ Requires membersEnv s ⟨none, some ⟨3, 4⟩⟩ := by
  obtain ⟨s, hs⟩ := members_run
  have hu := fun x (h : (members.subs.map boundAt).contains (some x) = false) => undefined_of (p := members) (x := x) h
  have key := C59_modules membersEnv_order hs (l₁ := members.kids.take 5) (l₂ := []) rfl rfl (seen_at 5 rfl rfl (seen_at 0 rfl rfl (.self _))) (members_unmarked _)
    (.renamed (bs := ["path"]) (chain_attr_nd ..).path members_o ⟨hu _ (by decide +kernel), by decide +kernel, _, .head _, nofun, .import rfl (.head _) rfl⟩)
    (hu _ (by decide +kernel)) (by decide +kernel)
  exact ⟨s, hs, key, .module key (by decide +kernel)⟩

/-- Example: `d.today(k=1)` after `from datetime import date` and `d = date()` -/
theorem C37_witness_passed : ∃ s, tour membersEnv members S.init = .ok s ∧ ("datetime.date.today", some "k") ∈ s.kwargs := by
  obtain ⟨s, hs⟩ := members_run
  exact ⟨s, hs, C37_passed hs (l₁ := members.kids.take 5) (l₂ := []) rfl rfl (seen_at 1 rfl rfl (seen_at 0 rfl rfl (.self _))) (members_unmarked _)
    (named_of (by decide +kernel)) ⟨rfl, rfl, .tail _ (.head _), rfl⟩
    (.variableFrom (bs := ["today"]) (.inr (chain_attr_nd ..).path) (ident _ (by decide)) (fun b hb => by cases List.mem_singleton.mp hb; exact ident _ (by decide))
      (members_unrenamed (by decide) (by decide)) (notFrom_of (by decide +kernel)) (notFrom_of (by decide +kernel)) members_d members_date)
    (undefined_of (by decide +kernel)) (by decide +kernel)⟩

end Vermin.Props
