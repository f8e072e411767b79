import Verif.Lemmas.Seen
import Verif.Props.Reach
/-
What is found of names: evidence for all of it (C29), and what is certain to be found of imports (C59), calls and attributes (C56, C60).
-/
namespace Vermin.Props
open Vermin Vermin.Py Vermin.Spec Vermin.V

/-! ### C29: evidence -/

/-- **C29 (names).** All that has been found of modules, members, keyword arguments, decorators, typecodes, error handlers and encodings is due
to parts of the program, together with what the program itself says about the names that occur there. -/
theorem C29_traced (env : Env) (p : Node) (s : S) (h : tour env p S.init = .ok s) : Traces env p s := by
  obtain ⟨u, o, hv, rfl⟩ := tour_run h
  have ht := (visit_traced env Anything p p (keeps_anything env p) _ _ (learnt_known (learnt_init env p)) hv).2.1 (traces_init env p)
  exact { ht with modules := fun m hm => ht.modules m (List.mem_filter.mp hm).1, members := fun m hm => ht.members m (List.mem_filter.mp hm).1 }

/-- What is known about names in the end is due to the program too. -/
theorem C29_learnt (env : Env) (p : Node) (s : S) (h : tour env p S.init = .ok s) : Learnt env p p s := by
  obtain ⟨u, o, hv, rfl⟩ := tour_run h
  have hl := (visit_traced env Anything p p (keeps_anything env p)).learnt (learnt_init env p) hv
  exact { hl with modules := fun m hm => hl.modules m (List.mem_filter.mp hm).1 }

/-! ### C59: imports -/

/-- The order in which the names of a set are looked at does not matter. -/
def SetOrder (env : Env) : Prop := ∀ l, (env.order l).Perm l

theorem kept {env : Env} {p : Node} {u : S} (hl : Learnt env p p u) (ho : SetOrder env) {x : String} (hx : Undefined p x) :
    (!(env.order u.userDefs).contains x) = true := by
  rw [Bool.not_eq_true', Bool.eq_false_iff]
  intro h
  have h := (ho u.userDefs).mem_iff.mp (List.contains_iff_mem.mp h)
  obtain ⟨k, hk, hd⟩ := hl.defs x h
  exact hx k hk hd

theorem unmarked {env : Env} {n : Node} (hm : ¬ Marked env n) (hk : Markable n.kind) : n.line ∉ env.noLines := fun h => hm ⟨hk, h⟩

section
variable {env : Env} {p n : Node} {s : S}

/-- What runs at a reached node is in the result. -/
theorem found_module (ho : SetOrder env) (h : tour env p S.init = .ok s) (hr : Seen env p n p) {x : String} (hx : Undefined p x)
    (he : env.cfg.isExcluded x = false) {l c : Option Nat} (hrun : LRuns env Anything p n (addModule env x l c) (visit env n)) : x ∈ s.modules := by
  obtain ⟨u, o, hv, rfl⟩ := tour_run h
  have h0 := keeps_anything env p
  have hl := (visit_traced env Anything p p h0).learnt (learnt_init env p) hv
  obtain ⟨a, b, _, h2, h3, h4⟩ := seen_learnt h0 hr (learnt_known (learnt_init env p)) hv
  obtain ⟨a', b', h5, h6, h7⟩ := hrun a b h2 h3
  have h8 := addModule_adds h5 hx he h6
  exact List.mem_filter.mpr ⟨h4.modules (h7.modules h8), kept hl ho hx⟩
theorem found_member (ho : SetOrder env) (h : tour env p S.init = .ok s) (hr : Seen env p n p) {x : String} (hx : Undefined p x)
    (he : env.cfg.isExcluded x = false) (hk : (env.tables.mem x).isSome = true) {l c : Option Nat}
    (hrun : LRuns env Anything p n (addMember env x l c) (visit env n)) : x ∈ s.members := by
  obtain ⟨u, o, hv, rfl⟩ := tour_run h
  have h0 := keeps_anything env p
  have hl := (visit_traced env Anything p p h0).learnt (learnt_init env p) hv
  obtain ⟨a, b, _, h2, h3, h4⟩ := seen_learnt h0 hr (learnt_known (learnt_init env p)) hv
  obtain ⟨a', b', h5, h6, h7⟩ := hrun a b h2 h3
  have h8 := addMember_adds h5 hx he hk h6
  exact List.mem_filter.mpr ⟨h4.members (h7.members h8), kept hl ho hx⟩

/-- **C59.** Wherever it is in the program, `import x` (or `import x as y`) makes `x` one of the modules found, unless `x` is excluded, the
statement is marked, or the program itself defines something by that name. -/
theorem C59_import (ho : SetOrder env) (h : tour env p S.init = .ok s) (hr : Seen env p n p) (hm : ¬ Marked env n) (hn : n.kind = .import)
    {a : Node} (ha : a ∈ n.fields .names) {x : String} {y : Option String} (hx : a.kind = .alias x y) (hd : Undefined p x)
    (he : env.cfg.isExcluded x = false) : x ∈ s.modules := by
  have hr' := (import_runs (p := p) (keeps_anything env p) hn ha (unmarked hm (by rw [hn]; trivial))).1
  rw [aliasOf_eq hx] at hr'
  exact found_module ho h hr hd he hr'

/-- **C59.** `from m import x` makes `m` and `m.x` found as modules, and `m.x` as a member if there is a rule for it. -/
theorem C59_from (ho : SetOrder env) (h : tour env p S.init = .ok s) (hr : Seen env p n p) (hm : ¬ Marked env n) {m : String}
    (hn : n.kind = .importFrom (some m) 0) :
    (Undefined p m → env.cfg.isExcluded m = false → m ∈ s.modules) ∧
    ∀ a ∈ n.fields .names, ∀ x y, a.kind = .alias x y → x ≠ "*" → Undefined p (m ++ "." ++ x) → env.cfg.isExcluded (m ++ "." ++ x) = false →
      m ++ "." ++ x ∈ s.modules ∧ ((env.tables.mem (m ++ "." ++ x)).isSome = true → m ++ "." ++ x ∈ s.members) := by
  obtain ⟨h1, h2⟩ := importFrom_runs (p := p) (keeps_anything env p) hn (unmarked hm (by rw [hn]; trivial))
  refine ⟨fun hd he => found_module ho h hr hd he h1, fun a ha x y hx hs hd he => ?_⟩
  have h3 := h2 a ha (by rw [aliasOf_eq hx]; exact hs)
  rw [aliasOf_eq hx] at h3
  exact ⟨found_module ho h hr hd he h3.1, fun hk => found_member ho h hr hd he hk h3.2.1⟩

/-! ### C60: calls and attributes -/

/-- **C60 (calls).** A call of the function `f`, wherever it is, makes `f` one of the members found if there is a rule for it, unless `f` is
excluded, the call is marked, or the program defines something by that name. -/
theorem C60_call (ho : SetOrder env) (h : tour env p S.init = .ok s) (hr : Seen env p n p) (hm : ¬ Marked env n) {f : String} (hn : CallsName n f)
    (hd : Undefined p f) (he : env.cfg.isExcluded f = false) (hk : (env.tables.mem f).isSome = true) : f ∈ s.members :=
  found_member ho h hr hd he hk (call_runs (keeps_anything env p) hn (unmarked hm (by rw [hn.1]; trivial)))

/-- **C56.** For an expression `a.b.c..` of any length the name considered is `a.b.c..`, where `a` is replaced by what it is imported as. -/
theorem C56_chain {n : Node} {a : String} {bs : List String} (h : Chain n a bs) (ms : Table) :
    dottedAttr ms n = .ok (dottedText ((Dict.get? ms a).getD a) bs) := by
  unfold dottedAttr
  rw [chain_name h]
  exact congrArg _ (dotted_text _ _)

/-- **C60 (attributes).** An expression `a.b.c..` makes `a.b.c..` one of the members found if there is a rule for it, where `a` is not a
name that the program gives to an import. -/
theorem C60_attribute (ho : SetOrder env) (h : tour env p S.init = .ok s) (hr : Seen env p n p) {a : String} {bs : List String} (hn : Chain n a bs)
    (ha : ∀ i m, In i p → ¬ ImportsAs i m a) (hd : Undefined p (dottedText a bs)) (he : env.cfg.isExcluded (dottedText a bs) = false)
    (hk : (env.tables.mem (dottedText a bs)).isSome = true) : dottedText a bs ∈ s.members := by
  obtain ⟨b, hb⟩ := chain_attr hn
  refine found_member ho h hr hd he hk (l := some n.line) (c := none) fun s t hl hv => ?_
  have hc := chain_name hn s.moduleAs
  rw [unrenamed ha hl.renames] at hc
  have := (attr_runs (keeps_anything env p) hb hl hv hc nofun).1
  rw [dotted_text] at this
  exact this

/-- What runs at a node after a statement that tells a fact is in the result. -/
theorem found_after (ho : SetOrder env) (h : tour env p S.init = .ok s) {i : Node} (hr : After env p i n) {P : Facts} (hP : Keeps env p P)
    (ht : Tells env P p i (visit env i)) {x : String} (hx : Undefined p x) {ms : List String}
    (hms : ∀ a b, Learnt env p i a → visit env i a = .ok b → ms ⊆ b.modules) {f : S → List String}
    (hf : ∀ s t : S, More s t → f s ⊆ f t) (hs : ∀ u : S, x ∈ f u → (!(env.order u.userDefs).contains x) = true → x ∈ f { u with
      modules := u.modules.filter (fun m => !(env.order u.userDefs).contains m), members := u.members.filter (fun m => !(env.order u.userDefs).contains m) })
    (ho' : ∀ (u : S) o, f { u with out := o } = f u)
    (hrun : ∀ s t, Known env P p n s → ms ⊆ s.modules → visit env n s = .ok t → x ∈ f t) : x ∈ f s := by
  obtain ⟨u, o, hv, rfl⟩ := tour_run h
  have h0 := keeps_anything env p
  have hl := (visit_traced env Anything p p h0).learnt (learnt_init env p) hv
  obtain ⟨a, b, h2, h3, h4⟩ := after_run hr hv
  obtain ⟨c, d, h5, h6, h7, h8⟩ := h4 P hP (ht a b h2 h3).known
  have h9 := hrun c d h6 (fun m hm => h5.modules (hms a b h2 h3 hm)) h7
  have h10 := hs u (hf _ _ h8 h9) (kept hl ho hx)
  rw [← ho' _ (u.out ++ o)] at h10
  exact h10

theorem found_members_after (ho : SetOrder env) (h : tour env p S.init = .ok s) {i : Node} (hr : After env p i n) {P : Facts} (hP : Keeps env p P)
    (ht : Tells env P p i (visit env i)) {x : String} (hx : Undefined p x) (he : env.cfg.isExcluded x = false) (hk : (env.tables.mem x).isSome = true)
    {ms : List String} (hms : ∀ a b, Learnt env p i a → visit env i a = .ok b → ms ⊆ b.modules) {l c : Option Nat}
    (hrun : ∀ s t, Known env P p n s → ms ⊆ s.modules → visit env n s = .ok t → ∃ u v, Known env P p n u ∧ addMember env x l c u = .ok v ∧ More v t) :
    x ∈ s.members := by
  refine found_after ho h hr hP ht hx hms (f := S.members) (fun s t h => h.members) (fun u h1 h2 => List.mem_filter.mpr ⟨h1, h2⟩) (fun _ _ => rfl) fun s t hl hm hv => ?_
  obtain ⟨u, v, h1, h2, h3⟩ := hrun s t hl hm hv
  have h4 := addMember_adds h1 hx he hk h2
  exact h3.members h4
theorem found_modules_after (ho : SetOrder env) (h : tour env p S.init = .ok s) {i : Node} (hr : After env p i n) {P : Facts} (hP : Keeps env p P)
    (ht : Tells env P p i (visit env i)) {x : String} (hx : Undefined p x) (he : env.cfg.isExcluded x = false)
    {ms : List String} (hms : ∀ a b, Learnt env p i a → visit env i a = .ok b → ms ⊆ b.modules) {l c : Option Nat}
    (hrun : ∀ s t, Known env P p n s → ms ⊆ s.modules → visit env n s = .ok t → ∃ u v, Known env P p n u ∧ addModule env x l c u = .ok v ∧ More v t) :
    x ∈ s.modules := by
  refine found_after ho h hr hP ht hx hms (f := S.modules) (fun s t h => h.modules) (fun u h1 h2 => List.mem_filter.mpr ⟨h1, h2⟩) (fun _ _ => rfl) fun s t hl hm hv => ?_
  obtain ⟨u, v, h1, h2, h3⟩ := hrun s t hl hm hv
  have h4 := addModule_adds h1 hx he h2
  exact h3.modules h4

theorem keeps_rename {m y : String} (hy : ∀ k m', In k p → ImportsAs k m' y → m' = m) : Keeps env p (fun ms _ _ _ => Dict.get? ms y = some m) := by
  refine ⟨fun k x z ms _ _ _ hk hr h => ?_, fun _ _ _ _ _ _ _ _ _ h => h, fun _ _ _ _ _ _ _ _ _ h => h, fun _ _ _ _ _ _ _ _ _ h => h⟩
  rw [Dict.get?_set]
  split
  · rename_i hxy
    rw [hy k z hk (hxy ▸ hr)]
  · exact h
theorem keeps_origin {m x : String} (hx : ∀ k m', In k p → ImportsFrom k m' x → m' = m) (hne : x ≠ "") :
    Keeps env p (fun _ os _ _ => Dict.get? os x = some m) := by
  refine ⟨fun _ _ _ _ _ _ _ _ _ h => h, fun k y z _ os _ _ hk hr h => ?_, fun _ _ _ _ _ _ _ _ _ h => h, fun _ _ _ _ _ _ _ _ _ h => h⟩
  rw [Dict.get?_set]
  split
  · rename_i hxy
    subst hxy
    obtain ⟨h1, _, a, ha, ⟨as, h2⟩ | h2⟩ := hr
    · rw [hx k z hk ⟨h1, a, ha, as, h2⟩]
    · exact absurd h2.1 hne
  · exact h
theorem importsAs_line {i : Node} {m y : String} (h : ImportsAs i m y) (hm : ¬ Marked env i) : i.line ∉ env.noLines := by
  refine unmarked hm ?_
  obtain ⟨_, _, _, _, ⟨hk, _⟩ | ⟨_, hk, _⟩⟩ := h <;> rw [hk] <;> trivial

/-- **C60 (renamed imports).** After a statement that imports `m` by the name `y`, an expression `y.b.c..` makes `m.b.c..` one of the members
found if there is a rule for it, provided that nothing else is imported by the name `y`. -/
theorem C60_renamed (ho : SetOrder env) (h : tour env p S.init = .ok s) {i : Node} (hr : After env p i n) {m y : String} {bs : List String}
    (hi : ImportsAs i m y) (him : ¬ Marked env i) (hy : ∀ k m', In k p → ImportsAs k m' y → m' = m) (hn : Chain n y bs)
    (hd : Undefined p (dottedText m bs)) (he : env.cfg.isExcluded (dottedText m bs) = false)
    (hk : (env.tables.mem (dottedText m bs)).isSome = true) : dottedText m bs ∈ s.members := by
  obtain ⟨b, hb⟩ := chain_attr hn
  have hP := keeps_rename (env := env) hy
  refine found_members_after ho h hr hP (tells_rename hP (fun ms _ _ _ => ?_) hi (importsAs_line hi him)) hd he hk (ms := []) (fun _ _ _ _ => nofun)
    (l := some n.line) (c := none) fun s t hl _ hv => ?_
  · rw [Dict.get?_set, if_pos rfl]
  · have hc := chain_name hn s.moduleAs
    have hres : resolveModuleName s.moduleAs y = m := by unfold resolveModuleName; rw [hl.known]; rfl
    rw [hres] at hc
    have := (attr_runs hP hb hl hv hc nofun).1
    rw [dotted_text] at this
    exact this

theorem defines_alias {k : Node} {m x : String} (h : ImportsAs k m x) : Defines k x := by
  obtain ⟨a, ha, z, hz, ⟨hk, _⟩ | ⟨m, hk, _⟩⟩ := h
  · exact .inr (.inr (.inl ⟨.inl hk, a, ha, z, hz⟩))
  · exact .inr (.inr (.inl ⟨.inr ⟨m, hk⟩, a, ha, z, hz⟩))
/-- **C60 (names imported from modules).** After a statement `from m import x`, an expression `x.b.c..` makes `m.x.b.c..` one of the members
found if there is a rule for it, provided that `x` is imported from no other module, is not the new name of an import, and the module is
neither excluded nor defined by the program. -/
theorem C60_from (ho : SetOrder env) (h : tour env p S.init = .ok s) {i : Node} (hr : After env p i n) {m x : String} {bs : List String}
    (hi : ImportsFrom i m x) (him : ¬ Marked env i) (hx : ∀ k m', In k p → ImportsFrom k m' x → m' = m) (hxs : x ≠ "*") (hxe : x ≠ "") (hmx : m ≠ x)
    (hmd : Undefined p m) (hme : env.cfg.isExcluded m = false) (ha : ∀ k m', In k p → ¬ ImportsAs k m' x) (hn : Chain n x bs)
    (hd : Undefined p (dottedText m (x :: bs))) (he : env.cfg.isExcluded (dottedText m (x :: bs)) = false)
    (hk : (env.tables.mem (dottedText m (x :: bs))).isSome = true) : dottedText m (x :: bs) ∈ s.members := by
  obtain ⟨b, hb⟩ := chain_attr hn
  have hP := keeps_origin (env := env) hx hxe
  have him' : i.line ∉ env.noLines := unmarked him (by rw [hi.1]; trivial)
  refine found_members_after ho h hr hP (tells_origin hP (fun _ os _ _ => ?_) hi hxs him') hd he hk (ms := [m]) (fun a b hl hv => ?_)
    (l := some n.line) (c := none) fun s t hl hms hv => ?_
  · rw [Dict.get?_set, if_pos rfl]
  · obtain ⟨u, v, h1, h2, h3⟩ := (importFrom_runs (p := p) (keeps_anything env p) hi.1 him').1 a b (learnt_known hl) hv
    have h4 := addModule_adds h1 hmd hme h2
    intro z hz
    cases List.mem_singleton.mp hz
    exact h3.modules h4
  · have hc := chain_name hn s.moduleAs
    rw [unrenamed ha hl.renames] at hc
    obtain ⟨u, v, h1, h2, h3⟩ := (attr_runs hP hb hl hv hc nofun).2.1 m (hms (.head _))
    refine ⟨u, v, h1, ?_, h3⟩
    unfold attrModule V.rd at h2
    dsimp only at h2
    rw [if_neg (by rintro h; injection h with h; injection h with h; exact hmx h.symm)] at h2
    have : ((some (some x) : Option (Option String)).getD none).bind (Dict.get? u.importMemMod) = some m := h1.known
    rw [List.head?_cons, this] at h2
    rw [← dotted_text]
    exact h2

/-- **C60 (parts of modules).** After a statement `import x`, an expression `x.b.c..` makes `x.b.c..` one of the modules found. -/
theorem C60_module (ho : SetOrder env) (h : tour env p S.init = .ok s) {i : Node} (hr : After env p i n) {x : String} {y : Option String} {bs : List String}
    (hi : i.kind = .import) {a : Node} (hai : a ∈ i.fields .names) (hax : a.kind = .alias x y) (him : ¬ Marked env i)
    (hxd : Undefined p x) (hxe : env.cfg.isExcluded x = false) (hn : Chain n x bs)
    (hd : Undefined p (dottedText x bs)) (he : env.cfg.isExcluded (dottedText x bs) = false) : dottedText x bs ∈ s.modules := by
  obtain ⟨b, hb⟩ := chain_attr hn
  have h0 := keeps_anything env p
  have him' : i.line ∉ env.noLines := unmarked him (by rw [hi]; trivial)
  refine found_modules_after ho h hr h0 (fun s t hl hv => learnt_known ((visit_traced env Anything p i h0).learnt hl hv)) hd he (ms := [x]) (fun a b hl hv => ?_)
    (l := some n.line) (c := none) fun s t hl hms hv => ?_
  · obtain ⟨u, v, h1, h2, h3⟩ := (import_runs (p := p) h0 hi hai him').1 a b (learnt_known hl) hv
    rw [aliasOf_eq hax] at h2
    have h4 := addModule_adds h1 hxd hxe h2
    intro z hz
    cases List.mem_singleton.mp hz
    exact h3.modules h4
  · have hc := chain_name hn s.moduleAs
    rw [unrenamed (fun k m hk hr => hxd k hk (defines_alias hr)) hl.renames] at hc
    obtain ⟨u, v, h1, h2, h3⟩ := (attr_runs h0 hb hl hv hc nofun).2.1 x (hms (.head _))
    refine ⟨u, v, h1, ?_, h3⟩
    unfold attrModule V.rd at h2
    dsimp only at h2
    rw [List.head?_cons, if_pos rfl, dotted_text] at h2
    exact h2

/-- **C60 (variables).** After an assignment of a value named `y` to the variable `x`, which is given no other kinds of values, an expression
`x.b.c..` makes `y.b.c..` one of the members found if there is a rule for it. -/
theorem C60_variable (ho : SetOrder env) (h : tour env p S.init = .ok s) {i : Node} (hr : After env p i n) {x y : String} {bs : List String}
    (hi : i.kind = .assign) (him : ¬ Marked env i) {v t : Node} {c : Ctx} (hv : i.field .value = some v) (ht : t ∈ i.fields .targets)
    (htx : t.kind = .name x c) (hx : Always p x y) (hxa : ∀ k m, In k p → ¬ ImportsAs k m x) (hyf : ∀ k m, In k p → ¬ ImportsFrom k m y) (hye : y ≠ "")
    (hn : Chain n x bs) (hd : Undefined p (dottedText y bs)) (he : env.cfg.isExcluded (dottedText y bs) = false)
    (hk : (env.tables.mem (dottedText y bs)).isSome = true) : dottedText y bs ∈ s.members := by
  obtain ⟨b, hb⟩ := chain_attr hn
  have hP := keeps_value (env := env) hx
  have hip : In i p := by
    obtain ⟨_, l₁, l₂, _, hks, _⟩ := hr
    exact .kid (by rw [hks]; simp) (.self i)
  have htk : t ∈ i.kids ∧ t.fld = .targets := by
    unfold Node.fields at ht
    obtain ⟨h1, h2⟩ := List.mem_filter.mp ht
    exact ⟨h1, by simpa using h2⟩
  have hden := (hx.1 i v hip ⟨.inl hi, hv, t, htk.1, .inl htk.2, c, htx⟩).resolve_right fun h => by rw [Augments, hi] at h; cases h.1
  refine found_members_after ho h hr hP (tells_value hP (fun _ _ vs _ => ?_) hi hv hden ht htx (unmarked him (by rw [hi]; trivial))) hd he hk
    (ms := []) (fun _ _ _ _ => nofun) (l := some n.line) (c := none) fun s t hl _ hv => ?_
  · rw [Dict.get?_set, if_pos rfl]
  · have hc := chain_name hn s.moduleAs
    rw [unrenamed hxa hl.renames] at hc
    obtain ⟨u, v, h1, h2, h3⟩ := (attr_runs hP hb hl hv hc nofun).2.2
    have hnone : Dict.get? u.importMemMod y = none := by
      cases hg : Dict.get? u.importMemMod y with
      | none => rfl
      | some m =>
        obtain ⟨k, hk, h1, _, a, ha, ⟨as, h2⟩ | h2⟩ := h1.origins y m hg
        · exact absurd ⟨h1, a, ha, as, h2⟩ (hyf k m hk)
        · exact absurd h2.1 hye
    unfold attrNameRes V.rd at h2
    dsimp only at h2
    have : ((some (some x) : Option (Option String)).getD none).bind (Dict.get? u.nameRes) = some y := h1.known
    rw [List.head?_cons, this] at h2
    obtain ⟨w, h4, h5⟩ := seq_run h2
    rw [hnone] at h4
    refine ⟨u, w, h1, ?_, Rel.more.trans (Rel.more.grow ?_) h3⟩
    · rw [← dotted_text]
      exact h4
    · refine Growing.rd (f := fun _ => attrTwoTier env u _ n.line y) (fun _ => ?_) w v h5
      unfold attrTwoTier
      split
      · exact .optSkip fun _ _ => (closed_growing env n).member _ _ trivial
      · exact .skip

end
end Vermin.Props
