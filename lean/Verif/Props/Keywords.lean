import Verif.Lemmas.Seen
import Verif.Lemmas.Dotted
import Verif.Lemmas.Spelt
import Verif.Props.Imports
/-
C37: keyword arguments are found with the functions they are passed to.
-/
namespace Vermin.Props
open Vermin Vermin.Py Vermin.Spec Vermin.V

section
variable {env : Env} {p n : Node} {s : S}

theorem noOrigin {x : String} (h : NotFrom p x) (hx : x ≠ "") {m : Node} {a : S} (hl : Learnt env p m a) : Dict.get? a.importMemMod x = none := by
  cases hg : Dict.get? a.importMemMod x with
  | none => rfl
  | some z =>
    obtain ⟨k, hk, h1, _, b, hb, ⟨as, h2⟩ | h2⟩ := hl.origins x z hg
    · exact absurd ⟨h1, b, hb, as, h2⟩ (h k z hk)
    · exact absurd h2.1 hx

theorem spelled {e : Node} {a : String} {bs : List String} (he : Names e a bs) {ms : Table} {f : String} (h : Spells ms e f) :
    (bs = [] ∧ f = a) ∨ f = dottedText (resolveModuleName ms a) bs := by
  rcases he with ⟨c, hc, hb⟩ | he
  · rcases h with ⟨c', h⟩ | ⟨⟨b, h⟩, _⟩
    · rw [hc] at h; injection h with h; exact .inl ⟨hb, h.symm⟩
    · rw [hc] at h; cases h
  · obtain ⟨b, hb⟩ := he.1
    rcases h with ⟨c', h⟩ | ⟨_, full, hr, h⟩
    · rw [hb] at h; cases h
    · rw [hr.spelt b .name a bs hb he.2, fullText_text] at h; exact .inr h

theorem names_kind {e : Node} {a : String} {bs : List String} (he : Names e a bs) : (∃ x c, e.kind = .name x c) ∨ ∃ b, e.kind = .attribute b := by
  rcases he with ⟨c, hc, _⟩ | he
  · exact .inl ⟨a, c, hc⟩
  · exact .inr he.1

/-- `k=..` is an argument of the call `n` of the function `e`. -/
structure Passes (n e kw : Node) (k : Option String) : Prop where
  call : n.kind = .call
  func : n.field .func = some e
  arg : kw ∈ n.kids
  keyword : kw.kind = .keyword k

theorem kw_kept {c : Config} {g : String} {k : Option String} (h : g ++ "(" ++ k.getD "None" ++ ")" ∉ c.exclusions) : c.isExcludedKwarg g (kwText k) = false := by
  unfold Config.isExcludedKwarg
  rw [show kwText k = k.getD "None" by cases k <;> rfl]
  simpa using h

theorem kw_spelt {P : Facts} (hP : Keeps env p P) (hn : Named n) (hm : ¬ Marked env n) {e kw : Node} {k : Option String} (hp : Passes n e kw k)
    (he : (∃ x c, e.kind = .name x c) ∨ ∃ b, e.kind = .attribute b) {g : String}
    (hg : ∀ u w : S, Known env P p n u → Known env P p kw w → ∀ f, Spells u.moduleAs e f → kwTarget w f = g)
    (hd : Undefined p g) (hx : env.cfg.isExcludedKwarg g (kwText k) = false) {s t : S} (hl : Known env P p n s) (hv : visit env n s = .ok t) :
    (g, k) ∈ t.kwargs := by
  obtain ⟨u, f, w, b, _, h1, h2, h3, h4, h5, h6⟩ :=
    call_keyword hP hn (unmarked hm (by rw [hp.call]; trivial)) hp.arg hp.call hp.func he hl hv
  have hgf := hg u w h1 h3 f h2
  have := keyword_adds hp.keyword h3 h4 (hgf.symm ▸ hd) (hgf.symm ▸ hx) h5
  rw [hgf] at this
  exact h6.kwargs this

theorem kw_result {P : Facts} (hP : Keeps env p P) (hn : Named n) (hm : ¬ Marked env n) {e kw : Node} {k : Option String} (hp : Passes n e kw k)
    {a : String} {bs : List String} (he : Names e a bs) {g : String}
    (hg : ∀ u w : S, Known env P p n u → Known env P p kw w → ∀ f, (bs = [] ∧ f = a) ∨ f = dottedText (resolveModuleName u.moduleAs a) bs → kwTarget w f = g)
    (hd : Undefined p g) (hx : env.cfg.isExcludedKwarg g (kwText k) = false) {s t : S} (hl : Known env P p n s) (hv : visit env n s = .ok t) :
    (g, k) ∈ t.kwargs :=
  kw_spelt hP hn hm hp (names_kind he) (fun u w hu hw f hf => hg u w hu hw f (spelled he hf)) hd hx hl hv

theorem kw_tour (h : tour env p S.init = .ok s) (hr : Seen env p n p) {P : Facts} (hP : Keeps env p P) (h0 : P [] [] [] []) {q : String × Option String}
    (hrun : ∀ s t, Known env P p n s → visit env n s = .ok t → q ∈ t.kwargs) : q ∈ s.kwargs := by
  obtain ⟨u, o, hv, rfl⟩ := tour_run h
  obtain ⟨a, b, _, h2, h3, h4⟩ := seen_learnt hP hr { learnt_init env p with known := h0 } hv
  exact h4.kwargs (hrun a b h2 h3)
theorem kw_after (h : tour env p S.init = .ok s) {i : Node} (hr : After env p i n) {P : Facts} (hP : Keeps env p P)
    (ht : Tells env P p i (visit env i)) {q : String × Option String}
    (hrun : ∀ s t, Known env P p n s → visit env n s = .ok t → q ∈ t.kwargs) : q ∈ s.kwargs := by
  obtain ⟨u, o, hv, rfl⟩ := tour_run h
  obtain ⟨a, b, h2, h3, h4⟩ := after_run hr hv
  obtain ⟨c, d, h5, h6, h7, h8⟩ := h4 P hP (ht a b h2 h3).known
  exact h8.kwargs (hrun c d h6 h7)

theorem target_plain {a : String} {bs : List String} (ha : Identifier a) (hb : ∀ b ∈ bs, Identifier b) {m : Node} {w : S} (hl : Learnt env p m w)
    (h1 : NotFrom p a) (h2 : NotFrom p (dottedText a bs)) (h3 : Unassigned p a) (h4 : dottedText a bs ≠ "") : kwTarget w (dottedText a bs) = dottedText a bs := by
  unfold kwTarget kwTargetVar
  rw [splitDots_text ha hb, List.headD_cons, noOrigin h2 h4 hl, noOrigin h1 ha.1 hl, noValue h3 hl]

theorem dottedText_ne {a : String} {bs : List String} (ha : Identifier a) (hb : ∀ b ∈ bs, Identifier b) : dottedText a bs ≠ "" := by
  intro h
  have := splitDots_text ha hb
  rw [h, show splitDots "" = [""] by decide] at this
  injection this with h1 h2
  exact ha.1 h1.symm

/-- **C37 (keyword arguments).** A keyword argument `k` of a call of `a.b..` (or of `a`), wherever the call is, is found with that function,
if `a` is neither imported from a module nor given a value, unless that is excluded, the call is marked, or the program defines that name.
It is assumed that the call contains no call of something that is neither a name nor an attribute (see `C37_false_unnamed`). -/
theorem C37_keyword (h : tour env p S.init = .ok s) (hr : Seen env p n p) (hm : ¬ Marked env n) (hn : Named n) {e kw : Node} {k : Option String}
    (hp : Passes n e kw k) {a : String} {bs : List String} (he : Names e a bs) (ha : Identifier a) (hb : ∀ b ∈ bs, Identifier b)
    (hra : ∀ i m, In i p → ¬ ImportsAs i m a) (hfa : NotFrom p a) (hff : NotFrom p (dottedText a bs)) (hva : Unassigned p a)
    (hd : Undefined p (dottedText a bs)) (hx : (dottedText a bs) ++ "(" ++ k.getD "None" ++ ")" ∉ env.cfg.exclusions) : (dottedText a bs, k) ∈ s.kwargs := by
  have hP := keeps_anything env p
  refine kw_tour h hr hP trivial fun s t hl hv => kw_result hP hn hm hp he (fun u w hu hw f hf => ?_) hd (kw_kept hx) hl hv
  have hfe : f = dottedText a bs := by
    rcases hf with ⟨rfl, rfl⟩ | rfl
    · rfl
    · rw [unrenamed hra hu.renames]
  rw [hfe]
  exact target_plain ha hb hw.toLearnt hfa hff hva (dottedText_ne ha hb)

/-- **C37 (imported functions).** After `from m import a`, a keyword argument `k` of a call of `a` (or of `a.b..`) is found with `m.a` (or
`m.a.b..`). -/
theorem C37_from (h : tour env p S.init = .ok s) {i : Node} (hr : After env p i n) {m a : String} (hi : ImportsFrom i m a) (him : ¬ Marked env i)
    (hia : ∀ k m', In k p → ImportsFrom k m' a → m' = m) (has : a ≠ "*") (hm : ¬ Marked env n) (hn : Named n) {e kw : Node} {k : Option String}
    (hp : Passes n e kw k) {bs : List String} (he : Names e a bs) (ha : Identifier a) (hb : ∀ b ∈ bs, Identifier b)
    (hra : ∀ i m, In i p → ¬ ImportsAs i m a) (hff : bs ≠ [] → NotFrom p (dottedText a bs))
    (hd : Undefined p (dottedText m (a :: bs))) (hx : (dottedText m (a :: bs)) ++ "(" ++ k.getD "None" ++ ")" ∉ env.cfg.exclusions) :
    (dottedText m (a :: bs), k) ∈ s.kwargs := by
  have hP := keeps_origin (env := env) hia ha.1
  refine kw_after h hr hP (tells_origin hP (fun _ os _ _ => ?_) hi has (unmarked him (by rw [hi.1]; trivial)))
    fun s t hl hv => kw_result hP hn hm hp he (fun u w hu hw f hf => ?_) hd (kw_kept hx) hl hv
  · rw [Dict.get?_set, if_pos rfl]
  · have hfe : f = dottedText a bs := by
      rcases hf with ⟨rfl, rfl⟩ | rfl
      · rfl
      · rw [unrenamed hra hu.renames]
    have hdot : dotted [some m, some (dottedText a bs)] = dottedText m (a :: bs) := by
      have h1 : ∀ (bs : List String) (x y : String), bs.foldl (fun t b => t ++ "." ++ b) (x ++ y) = x ++ bs.foldl (fun t b => t ++ "." ++ b) y := by
        intro bs
        induction bs with
        | nil => intro x y; rfl
        | cons b bs ih => intro x y; rw [List.foldl_cons, List.foldl_cons, ← ih]; simp [String.append_assoc]
      rw [show [some m, some (dottedText a bs)] = some m :: [dottedText a bs].map some from rfl, dotted_text]
      unfold dottedText
      rw [List.foldl_cons, List.foldl_cons, List.foldl_nil, h1]
    rw [hfe]
    unfold kwTarget
    rw [splitDots_text ha hb, List.headD_cons]
    cases bs with
    | nil =>
      rw [show dottedText a [] = a from rfl, hw.known]
      exact hdot
    | cons b bs =>
      rw [noOrigin (hff nofun) (dottedText_ne ha hb) hw.toLearnt, hw.known]
      exact hdot

/-- **C37 (renamed modules).** After a statement that imports `m` by the name `y`, a keyword argument `k` of a call of `y.b..` is found with
`m.b..`, if the module `m` (or the first part of its name) is itself neither imported from a module nor given a value. -/
theorem C37_renamed (h : tour env p S.init = .ok s) {i : Node} (hr : After env p i n) {a y : String} {as bs : List String}
    (hi : ImportsAs i (dottedText a as) y) (him : ¬ Marked env i) (hy : ∀ k m', In k p → ImportsAs k m' y → m' = dottedText a as)
    (hm : ¬ Marked env n) (hn : Named n) {e kw : Node} {k : Option String} (hp : Passes n e kw k) (he : Path e y bs) (ha : Identifier a)
    (has : ∀ b ∈ as, Identifier b) (hb : ∀ b ∈ bs, Identifier b) (hfa : NotFrom p a) (hff : NotFrom p (dottedText a (as ++ bs))) (hva : Unassigned p a)
    (hd : Undefined p (dottedText a (as ++ bs))) (hx : (dottedText a (as ++ bs)) ++ "(" ++ k.getD "None" ++ ")" ∉ env.cfg.exclusions) :
    (dottedText a (as ++ bs), k) ∈ s.kwargs := by
  have hP := keeps_rename (env := env) hy
  have hall : ∀ b ∈ as ++ bs, Identifier b := fun b h => by
    rcases List.mem_append.mp h with h | h
    · exact has b h
    · exact hb b h
  refine kw_after h hr hP (tells_rename hP (fun ms _ _ _ => ?_) hi (importsAs_line hi him))
    fun s t hl hv => kw_result hP hn hm hp (.inr he) (fun u w hu hw f hf => ?_) hd (kw_kept hx) hl hv
  · rw [Dict.get?_set, if_pos rfl]
  · have hbs := path_ne he
    have hfe : f = dottedText a (as ++ bs) := by
      rcases hf with ⟨h, _⟩ | rfl
      · exact absurd h hbs
      · have : resolveModuleName u.moduleAs y = dottedText a as := by unfold resolveModuleName; rw [hu.known]; rfl
        rw [this, dottedText_append]
    rw [hfe]
    exact target_plain ha hall hw.toLearnt hfa hff hva (dottedText_ne ha hall)

/-- **C37 (methods).** After an assignment of a value named `y` to the variable `x`, which is given no other kinds of values, a keyword argument
`k` of a call of `x.b..` is found with `y.b..`. -/
theorem C37_method (h : tour env p S.init = .ok s) {i : Node} (hr : After env p i n) {x y : String} {bs : List String}
    (hi : i.kind = .assign) (him : ¬ Marked env i) {v t : Node} {c : Ctx} (hv : i.field .value = some v) (ht : t ∈ i.fields .targets)
    (htx : t.kind = .name x c) (hx : Always p x y) (hxa : ∀ k m, In k p → ¬ ImportsAs k m x) (hxf : NotFrom p x) (hff : NotFrom p (dottedText x bs))
    (hyf : NotFrom p y) (hye : y ≠ "") (hm : ¬ Marked env n) (hn : Named n) {e kw : Node} {k : Option String} (hp : Passes n e kw k)
    (he : Path e x bs) (hxi : Identifier x) (hb : ∀ b ∈ bs, Identifier b) (hd : Undefined p (dottedText y bs))
    (hxc : (dottedText y bs) ++ "(" ++ k.getD "None" ++ ")" ∉ env.cfg.exclusions) : (dottedText y bs, k) ∈ s.kwargs := by
  have hP := keeps_value (env := env) hx
  have hip : In i p := by
    obtain ⟨_, l₁, l₂, _, hks, _⟩ := hr
    exact .kid (by rw [hks]; simp) (.self i)
  have htk : t ∈ i.kids ∧ t.fld = .targets := by
    unfold Node.fields at ht
    obtain ⟨h1, h2⟩ := List.mem_filter.mp ht
    exact ⟨h1, by simpa using h2⟩
  have hden := (hx.1 i v hip ⟨.inl hi, hv, t, htk.1, .inl htk.2, c, htx⟩).resolve_right fun h => by rw [Augments, hi] at h; cases h.1
  refine kw_after h hr hP (tells_value hP (fun _ _ vs _ => ?_) hi hv hden ht htx (unmarked him (by rw [hi]; trivial)))
    fun s t hl hv => kw_result hP hn hm hp (.inr he) (fun u w hu hw f hf => ?_) hd (kw_kept hxc) hl hv
  · rw [Dict.get?_set, if_pos rfl]
  · have hbs := path_ne he
    have hfe : f = dottedText x bs := by
      rcases hf with ⟨h, _⟩ | rfl
      · exact absurd h hbs
      · rw [unrenamed hxa hu.renames]
    rw [hfe]
    unfold kwTarget kwTargetVar
    rw [splitDots_text hxi hb, List.headD_cons, noOrigin hff (dottedText_ne hxi hb) hw.toLearnt, noOrigin hxf hxi.1 hw.toLearnt, hw.known]
    dsimp only
    rw [noOrigin hyf hye hw.toLearnt]
    exact dotted_text _ _

/-- **C37 (only).** Every keyword argument found is in the program, inside a call of the function it is found with: of something spelled `f`,
where `f` stands for `g` by an import or an assignment of the program. -/
theorem C37_only (h : tour env p S.init = .ok s) {g : String} {k : Option String} (hk : (g, k) ∈ s.kwargs) :
    ∃ kw c w u e f, In kw p ∧ kw.kind = .keyword k ∧ In c p ∧ In kw c ∧ c.kind = .call ∧ c.field .func = some e ∧ RenamesFrom env p u ∧
      Spells u.moduleAs e f ∧ Learnt env p kw w ∧ KeywordOwner w.importMemMod w.nameRes f g := by
  obtain ⟨kw, hkw, hkk, w, f, hw, hf, ho⟩ := (C29_traced env p s h).kwargs _ hk
  obtain ⟨c, hc, hkc, u, hu, hcall, e, he, hs⟩ := hw.calls f hf
  exact ⟨kw, c, w, u, e, f, hkw, hkk, hc, hkc, hcall, he, hu, hs, hw, ho⟩

end
end Vermin.Props
