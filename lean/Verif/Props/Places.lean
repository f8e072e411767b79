import Verif.Lemmas.Places
import Verif.Props.Imports
import Verif.Lemmas.Enum
/-
What is found at the places of a program (C72): names that are defined there are left out, ellipses in slices are no literals, and functions of
modules are at the top.
-/
namespace Vermin.Props
open Vermin Vermin.Py Vermin.Spec Vermin.V

/-- Everything that is found in the state is due to places of the program. -/
structure Evident (env : Env) (p : Node) (s : S) : Prop where
  flags : ∀ f ∈ s.flags, Backs env p .start p (.flag f)
  modules : ∀ m ∈ s.modules, Backs env p .start p (.module m)
  members : ∀ m ∈ s.members, Backs env p .start p (.member m)
  kwargs : ∀ q ∈ s.kwargs, Backs env p .start p (.kwarg q.1 q.2)
  decos : ∀ u ∈ s.userFuncDecos, Backs env p .start p (.deco u)

/-- **C72.** Everything that is found is due to a part of the program that is not on a marked line, given what may be known there and what is
certain there: which names are defined, which ellipses are in slices, and how deep the part is nested.  What is about a name is not found where the
name is certain to be defined. -/
theorem C72_placed (env : Env) (p : Node) (s : S) (h : tour env p S.init = .ok s) : Evident env p s := by
  obtain ⟨u, o, hv, rfl⟩ := tour_run h
  have d := visit_placed env p p .start S.init u { learnt_init env p with known := trivial } ⟨nofun, nofun, rfl⟩ hv
  exact ⟨fun f hf => (d.news.flags f hf).resolve_left nofun, fun f hf => (d.news.modules f (List.mem_filter.mp hf).1).resolve_left nofun,
    fun f hf => (d.news.members f (List.mem_filter.mp hf).1).resolve_left nofun, fun f hf => (d.news.kwargs f hf).resolve_left nofun,
    fun f hf => (d.news.decos f hf).resolve_left nofun⟩

/-! ### Places -/

section
variable {env : Env} {p n m : Node} {c c' : Place} {x : String}

theorem located_in (h : Located env c n c' m) : In m n := by
  induction h with
  | here => exact .self _
  | part _ _ hl _ ih => exact .kid (by rw [hl]; simp) ih
  | «finally» _ _ hl _ ih => exact .kid (List.mem_filter.mp (by rw [hl]; simp : _ ∈ Node.fields _ _)).1 ih
  | again _ _ hk hl _ ih => exact .kid (List.mem_filter.mp hk).1 (.kid (by rw [hl]; simp) ih)

/-- What is defined somewhere is so at all parts. -/
theorem located_defs (h : Located env c n c' m) (hx : c.defs x) : c'.defs x := by
  induction h with
  | here => exact hx
  | part _ _ _ _ ih => exact ih (.inl (.inl hx))
  | «finally» _ _ _ _ ih => exact ih (.inl hx)
  | again _ _ _ _ _ ih => exact ih (.inl (.inl hx))

theorem located_slices {u : Nat} (h : Located env c n c' m) (hx : c.slices u) : c'.slices u := by
  induction h with
  | here => exact hx
  | part _ _ _ _ ih => exact ih (.inl hx)
  | «finally» _ _ _ _ ih => exact ih hx
  | again _ _ _ _ _ ih => exact ih (.inl hx)

theorem located_depth (h : Located env c n c' m) : c.depth ≤ c'.depth := by
  induction h with
  | here => exact Nat.le_refl _
  | part _ _ _ _ ih => exact Nat.le_of_succ_le ih
  | «finally» _ _ _ _ ih => exact ih
  | again _ _ _ _ _ ih => exact Nat.le_of_succ_le ih

/-- A statement, or one in a `finally` clause of it. -/
inductive Finals : Node → Node → Prop
  | self (n : Node) : Finals n n
  | part {n k m : Node} : n.kind = .try → k ∈ n.fields .finalbody → Finals k m → Finals n m

theorem located_level (h : Located env c n c' m) (hd : c'.depth = c.depth) : Finals n m := by
  induction h with
  | here => exact .self _
  | part _ _ _ h _ =>
    have := located_depth h
    rw [hd] at this
    exact absurd this (Nat.not_succ_le_self _)
  | «finally» _ hn hl _ ih => exact .part hn (by rw [hl]; simp) (ih hd)
  | again _ _ _ _ h _ =>
    have := located_depth h
    rw [hd] at this
    exact absurd this (Nat.not_succ_le_self _)

/-- After a statement of a module that leaves a definition behind the name is defined. -/
theorem located_after {l₁ l₂ : List Node} {i : Node} (hp : p.kind = .module) (hk : p.kids = l₁ ++ l₂) (hi : i ∈ l₁) (hx : Leaves env i x)
    (h : Located env c p c' m) : m = p ∨ (∃ k ∈ l₁, In m k) ∨ c'.defs x := by
  cases h with
  | here => exact .inl rfl
  | part hm hu hl h =>
    rename_i k a b
    refine .inr ?_
    rcases List.append_eq_append_iff.mp (hk.symm.trans hl) with ⟨r, h1, h2⟩ | ⟨r, h1, h2⟩
    · refine .inr (located_defs h (.inr ⟨i, ⟨by rw [h1]; exact List.mem_append_left _ hi, ?_⟩, hx⟩))
      rintro ⟨_, hx | ⟨⟨y, hx | hx⟩, _⟩⟩ <;> rw [hp] at hx <;> cases hx
    · cases r with
      | nil =>
        rw [List.append_nil] at h1
        subst h1
        refine .inr (located_defs h (.inr ⟨i, ⟨hi, ?_⟩, hx⟩))
        rintro ⟨_, hx | ⟨⟨y, hx | hx⟩, _⟩⟩ <;> rw [hp] at hx <;> cases hx
      | cons j r =>
        injection h2 with h2 _
        subst h2
        exact .inl ⟨k, by rw [h1]; simp, located_in h⟩
  | «finally» _ hn => rw [hp] at hn; cases hn
  | again _ hn => rw [hp] at hn; cases hn

/-- Parameters of a function are defined in all parts after them. -/
theorem located_parameter {a : Node} {l : List Node} (hn : IsFunction n ∨ n.kind = .lambda) (hk : n.kids = a :: l) (ha : a.kind = .arguments) (hf : a.fld = .args)
    (hx : Defines a x) (h : Located env c n c' m) : m = n ∨ In m a ∨ c'.defs x := by
  cases h with
  | here => exact .inl rfl
  | part hm hu hl h =>
    rename_i k b d
    refine .inr ?_
    rw [hk] at hl
    cases b with
    | nil => injection hl with hl _; subst hl; exact .inl (located_in h)
    | cons j b =>
      injection hl with hl _
      subst hl
      refine .inr (located_defs h (.inr ⟨a, ⟨.head _, ?_⟩, .inr ⟨ha, hx⟩⟩))
      rintro ⟨_, hx | ⟨_, hx⟩⟩
      · rcases hn with ⟨y, hn | hn⟩ | hn <;> rw [hn] at hx <;> cases hx
      · rw [hf] at hx; cases hx
  | «finally» _ h => rcases hn with ⟨y, hn | hn⟩ | hn <;> rw [hn] at h <;> cases h
  | again _ h => rcases hn with ⟨y, hn | hn⟩ | hn <;> rw [hn] at h <;> cases h

end

/-! ### Findings -/

section
variable {env : Env} {p : Node} {s : S}

theorem backs_found {ev : Event} (h : Backs env p .start p ev) : ∃ m, ¬ Marked env m ∧ In m p ∧ EmitsIn env (Learnt env p m) m ev := by
  obtain ⟨c, m, h1, h2, h3, _⟩ := h
  exact ⟨m, h2, located_in h1, emitsIn_mono (fun _ h => h.2) h3⟩

/-- **C29.** Every feature that is reported is due to a construct in the program that is not on a marked line, given what may be known there. -/
theorem C29_flags (h : tour env p S.init = .ok s) {f : Flag} (hf : f ∈ s.flags) : ∃ m, ¬ Marked env m ∧ In m p ∧ ConstructIn env (Learnt env p m) m f :=
  backs_found ((C72_placed env p s h).flags f hf)

/-- `long` is reported only for a name where `long` is not certain to be defined. -/
theorem C72_long (h : tour env p S.init = .ok s) (hf : .longv2 ∈ s.flags) :
    ∃ c m, Located env .start p c m ∧ IsName m "long" ∧ ¬ c.defs "long" := by
  obtain ⟨c, m, h1, _, ⟨h2, s', ⟨h3, _⟩, h4⟩, _⟩ := (C72_placed env p s h).flags _ hf
  exact ⟨c, m, h1, h2.1, fun hd => h4 (h3.defs _ (.inl hd))⟩

/-- An ellipsis is reported only if it is in no slice. -/
theorem C72_ellipsis (h : tour env p S.init = .ok s) (hf : .ellipsisOutOfSlices ∈ s.flags) :
    ∃ c m, Located env .start p c m ∧ m.kind = .const .ellipsis ∧ ¬ c.slices m.info.uid := by
  obtain ⟨c, m, h1, _, ⟨h2, s', ⟨h3, _⟩, h4⟩, _⟩ := (C72_placed env p s h).flags _ hf
  exact ⟨c, m, h1, h2, fun hd => h4 (h3.slices _ hd)⟩

theorem level_one (hp : p.kind = .module) {c : Place} {m : Node} (h : Located env .start p c m) (hd : c.depth = 1) : ∃ k ∈ p.kids, Finals k m := by
  cases h with
  | here => cases hd
  | part _ _ hl h => exact ⟨_, by rw [hl]; simp, located_level h hd⟩
  | «finally» _ hn => rw [hp] at hn; cases hn
  | again _ hn => rw [hp] at hn; cases hn

/-- `__dir__` is reported only for a function of a module itself. -/
theorem C72_dir (hp : p.kind = .module) (h : tour env p S.init = .ok s) (hf : .moduleDirFunc ∈ s.flags) :
    ∃ k ∈ p.kids, ∃ m, Finals k m ∧ ModuleFunction m "__dir__" 0 := by
  obtain ⟨c, m, h1, _, ⟨h2, s', ⟨h3, _⟩, h4⟩, _⟩ := (C72_placed env p s h).flags _ hf
  obtain ⟨k, hk, hm⟩ := level_one hp h1 (h3.depth.symm.trans h4)
  exact ⟨k, hk, m, hm, h2.1⟩
/-- So is `__getattr__`. -/
theorem C72_getattr (hp : p.kind = .module) (h : tour env p S.init = .ok s) (hf : .moduleGetattrFunc ∈ s.flags) :
    ∃ k ∈ p.kids, ∃ m, Finals k m ∧ ModuleFunction m "__getattr__" 1 := by
  obtain ⟨c, m, h1, _, ⟨h2, s', ⟨h3, _⟩, h4⟩, _⟩ := (C72_placed env p s h).flags _ hf
  obtain ⟨k, hk, hm⟩ := level_one hp h1 (h3.depth.symm.trans h4)
  exact ⟨k, hk, m, hm, h2.1⟩

/-! ### Names that are defined -/

/-- **C72 (statements).** Once a statement of a module has left a definition of a name behind, nothing about the name is found in what follows:
members, modules, keyword arguments of a function of that name, and decorators are due to the statements up to there. -/
theorem C72_after {l₁ l₂ : List Node} {i : Node} {x : String} (hp : p.kind = .module) (hk : p.kids = l₁ ++ l₂) (hi : i ∈ l₁) (hx : Leaves env i x)
    {ev : Event} (hs : Event.subject ev = some x) (hb : Backs env p .start p ev) :
    ∃ k ∈ l₁, ∃ m, In m k ∧ EmitsIn env (Learnt env p m) m ev := by
  obtain ⟨c, m, h1, _, h3, h4⟩ := hb
  have h3 := emitsIn_mono (fun _ h => h.2) h3
  rcases located_after hp hk hi hx h1 with rfl | ⟨k, hk, hm⟩ | hd
  · exfalso
    cases ev with
    | module y =>
      rcases h3 with ⟨h3, _⟩ | ⟨_, h3, _⟩ | ⟨⟨_, h3⟩, _⟩ <;> rw [hp] at h3 <;> cases h3
    | member y =>
      rcases h3 with ⟨h3, _⟩ | ⟨_, h3, _⟩ | h3 | ⟨⟨_, h3⟩, _⟩ | ⟨h3, _⟩ | ⟨⟨_, h3⟩, _⟩ <;> first | (rw [hp] at h3; cases h3) | skip
      have h3 := h3.1
      rw [hp] at h3; cases h3
    | kwarg f y => have h3 := h3.1; rw [hp] at h3; cases h3
    | deco u =>
      have h3 := h3.1
      rcases h3 with ⟨_, h3 | h3⟩ <;> rw [hp] at h3 <;> cases h3
    | _ => cases hs
  · exact ⟨k, hk, m, hm, h3⟩
  · exact absurd (.inl hd) (h4 _ hs)

/-- A member is not reported if the name is defined before it is used. -/
theorem C72_member {l₁ l₂ : List Node} {i : Node} {x : String} (hp : p.kind = .module) (hk : p.kids = l₁ ++ l₂) (hi : i ∈ l₁) (hx : Leaves env i x)
    (hu : ∀ k ∈ l₁, ∀ m, In m k → ¬ EmitsIn env (Learnt env p m) m (.member x)) (h : tour env p S.init = .ok s) : x ∉ s.members := fun hm => by
  obtain ⟨k, hk, m, h1, h2⟩ := C72_after hp hk hi hx (ev := .member x) rfl ((C72_placed env p s h).members x hm)
  exact hu k hk m h1 h2
/-- Keyword arguments of a function are not recorded if it is defined before. -/
theorem C72_kwarg {l₁ l₂ : List Node} {i : Node} {x : String} (hp : p.kind = .module) (hk : p.kids = l₁ ++ l₂) (hi : i ∈ l₁) (hx : Leaves env i x)
    (hu : ∀ k ∈ l₁, ∀ m a, In m k → m.kind ≠ .keyword a) (h : tour env p S.init = .ok s) : ∀ a, (x, a) ∉ s.kwargs := fun a hm => by
  obtain ⟨k, hk, m, h1, h2⟩ := C72_after hp hk hi hx (ev := .kwarg x a) rfl ((C72_placed env p s h).kwargs _ hm)
  exact hu k hk m a h1 h2.1
/-- Decorators are not recorded if they are defined before. -/
theorem C72_deco {l₁ l₂ : List Node} {i : Node} {x : String} (hp : p.kind = .module) (hk : p.kids = l₁ ++ l₂) (hi : i ∈ l₁) (hx : Leaves env i x)
    (hu : ∀ k ∈ l₁, ∀ m, In m k → IsFunction m → m.fields .decoratorList = []) (h : tour env p S.init = .ok s) : x ∉ s.userFuncDecos := fun hm => by
  obtain ⟨k, hk, m, h1, h2⟩ := C72_after hp hk hi hx (ev := .deco x) rfl ((C72_placed env p s h).decos x hm)
  obtain ⟨h3, d, hd, _⟩ := h2
  rw [hu k hk m h1 h3] at hd
  cases hd
/-- `long` is not reported if it is defined before it is used. -/
theorem C72_long_after {l₁ l₂ : List Node} {i : Node} (hp : p.kind = .module) (hk : p.kids = l₁ ++ l₂) (hi : i ∈ l₁) (hx : Leaves env i "long")
    (hu : ∀ k ∈ l₁, ∀ m, In m k → ¬ IsName m "long") (h : tour env p S.init = .ok s) : .longv2 ∉ s.flags := fun hf => by
  obtain ⟨c, m, h1, h2, h3⟩ := C72_long h hf
  rcases located_after hp hk hi hx h1 with rfl | ⟨k, hk, hm⟩ | hd
  · obtain ⟨_, h2⟩ := h2; rw [hp] at h2; cases h2
  · exact hu k hk m hm h2
  · exact h3 hd

/-- **C72 (parameters).** In a module of one function nothing about a parameter is found in the function. -/
theorem C72_parameter {f a : Node} {l₁ l₂ l : List Node} (hp : p.kind = .module) (hk : p.kids = l₁ ++ f :: l₂) (hf : IsFunction f)
    (ha : f.kids = a :: l) (hak : a.kind = .arguments) (haf : a.fld = .args) (hx : Defines a "long")
    (hu : ∀ k, k ∈ l₁ ∨ k ∈ l₂ ∨ k = a → ∀ m, In m k → ¬ IsName m "long") (h : tour env p S.init = .ok s) : .longv2 ∉ s.flags := fun hfl => by
  obtain ⟨c, m, h1, h2, h3⟩ := C72_long h hfl
  cases h1 with
  | here => obtain ⟨_, h2⟩ := h2; rw [hp] at h2; cases h2
  | part hm hu' hl h1 =>
    rename_i k b d
    have hkk : k ∈ l₁ ++ f :: l₂ := by rw [← hk, hl]; simp
    rcases List.mem_append.mp hkk with hkk | hkk
    · exact hu k (.inl hkk) m (located_in h1) h2
    · rcases List.mem_cons.mp hkk with rfl | hkk
      · rcases located_parameter (.inl hf) ha hak haf hx h1 with rfl | hd | hd
        · obtain ⟨_, h2⟩ := h2
          obtain ⟨y, hf | hf⟩ := hf <;> rw [hf] at h2 <;> cases h2
        · exact hu a (.inr (.inr rfl)) m hd h2
        · exact h3 hd
      · exact hu k (.inr (.inl hkk)) m (located_in h1) h2
  | «finally» _ hn => rw [hp] at hn; cases hn
  | again _ hn => rw [hp] at hn; cases hn

end

/-! ### Examples -/

/-- `long = x` -/
def setsLong : Node := nd .body .assign 1 [nd .targets (.name "long" .store) 1 [], nm .value "x"]
/-- `@long` `def f(): return long(k=1)` -/
def usesLong : Node := nd .body (.functionDef "f") 3 [nd .args .arguments 3 [], nd .body .ret 3 [nd .value .call 3
  [nm .func "long" 3, nd .keywords (.keyword (some "k")) 3 [nm .value "x" 3]]], nm .decoratorList "long" 2]
/-- `def g(long): return long` -/
def takesLong : Node := nd .body (.functionDef "g") 4 [nd .args .arguments 4 [nd .args (.arg "long") 4 []], nd .body .ret 4 [nm .value "long" 4]]

/-- Rules for `long` -/
def placesEnv : Env :=
  { exampleEnv (Config.init 1) with
    path := "__init__.py"
    tables := { (exampleEnv (Config.init 1)).tables with
      mem := fun m => if m = "long" then some ⟨some ⟨2, 0⟩, none⟩ else none
      deco := fun m => if m = "long" then some ⟨some ⟨2, 0⟩, none⟩ else none } }

theorem setsLong_leaves : Leaves placesEnv setsLong "long" :=
  .inl ⟨setsLong, .self _, by simp [Marked, placesEnv, exampleEnv], .assign rfl (.head _) (.name rfl)⟩
/-- The nodes of an assignment -/
theorem setsLong_in {m : Node} (h : In m setsLong) : m = setsLong ∨ m = nd .targets (.name "long" .store) 1 [] ∨ m = nm .value "x" := by
  cases h with
  | self => exact .inl rfl
  | kid hk h =>
    rcases List.mem_cons.mp hk with rfl | hk
    · cases h with
      | self => exact .inr (.inl rfl)
      | kid hk _ => cases hk
    · cases List.mem_singleton.mp hk
      cases h with
      | self => exact .inr (.inr rfl)
      | kid hk _ => cases hk

/-- Example: `long` is reported where it is not defined; its keyword argument and use as a decorator are recorded. -/
theorem C72_witness_used : ∃ s, tour placesEnv (prog [usesLong]) S.init = .ok s ∧ s.has .longv2 = true ∧ "long" ∈ s.members ∧
    ("long", some "k") ∈ s.kwargs ∧ "long" ∈ s.userFuncDecos ∧ Backs placesEnv (prog [usesLong]) .start (prog [usesLong]) (.deco "long") := by
  refine ⟨_, rfl, by decide +kernel, by decide +kernel, by decide +kernel, by decide +kernel, ?_⟩
  exact (C72_placed _ _ _ rfl).decos "long" (by decide +kernel)

/-- Example: the same after `long = x`. -/
theorem C72_witness_after : ∃ s, tour placesEnv (prog [setsLong, usesLong]) S.init = .ok s ∧ "long" ∉ s.members ∧
    (∀ a, ("long", a) ∉ s.kwargs) ∧ "long" ∉ s.userFuncDecos := by
  obtain ⟨s, hs⟩ : ∃ s, tour placesEnv (prog [setsLong, usesLong]) S.init = .ok s := ⟨_, rfl⟩
  refine ⟨s, hs, C72_member (l₁ := [setsLong]) (l₂ := [usesLong]) rfl rfl (.head _) setsLong_leaves (fun k hk m hm => ?_) hs,
    C72_kwarg (l₁ := [setsLong]) (l₂ := [usesLong]) rfl rfl (.head _) setsLong_leaves (fun k hk m a hm => ?_) hs,
    C72_deco (l₁ := [setsLong]) (l₂ := [usesLong]) rfl rfl (.head _) setsLong_leaves (fun k hk m hm hf => ?_) hs⟩
  · cases List.mem_singleton.mp hk
    rcases setsLong_in hm with rfl | rfl | rfl
    all_goals
      rintro (⟨h, _⟩ | ⟨_, h, _⟩ | ⟨h, _⟩ | ⟨⟨_, h⟩, _⟩ | ⟨h, _⟩ | ⟨⟨_, h⟩, _⟩) <;> cases h
  · cases List.mem_singleton.mp hk
    rcases setsLong_in hm with rfl | rfl | rfl <;> nofun
  · cases List.mem_singleton.mp hk
    rcases setsLong_in hm with rfl | rfl | rfl <;> rfl

/-- `def long(): pass`, `long` -/
def definesLong : Node := nd .body (.functionDef "long") 1 [nd .args .arguments 1 [], nd .body .pass 1 []]
/-- Example: `long` after a function of that name -/
theorem C72_witness_long : ∃ s, tour placesEnv (prog [definesLong, usesLong]) S.init = .ok s ∧ .longv2 ∉ s.flags := by
  obtain ⟨s, hs⟩ : ∃ s, tour placesEnv (prog [definesLong, usesLong]) S.init = .ok s := ⟨_, rfl⟩
  refine ⟨s, hs, C72_long_after (l₁ := [definesLong]) (l₂ := [usesLong]) rfl rfl (.head _) (.inl ⟨_, .self _, by simp [Marked, placesEnv, exampleEnv], .function (.inl rfl)⟩)
    (fun k hk m hm hl => ?_) hs⟩
  cases List.mem_singleton.mp hk
  obtain ⟨c, hl⟩ := hl
  have h : ∀ m ∈ definesLong.subs, m.nameId ≠ some "long" := by decide +kernel
  exact h m (mem_subs hm) (by unfold Node.nameId; rw [hl])

/-- Example: a parameter -/
theorem C72_witness_parameter : ∃ s, tour placesEnv (prog [takesLong]) S.init = .ok s ∧ .longv2 ∉ s.flags := by
  obtain ⟨s, hs⟩ : ∃ s, tour placesEnv (prog [takesLong]) S.init = .ok s := ⟨_, rfl⟩
  refine ⟨s, hs, C72_parameter (l₁ := []) (l₂ := []) rfl rfl ⟨_, .inl rfl⟩ rfl rfl rfl
    (.inr (.inr (.inr (.inr (.inr (.inr (.inr (.inr (.inr ⟨rfl, _, .head _, rfl, .inl rfl⟩))))))))) (fun k hk m hm hl => ?_) hs⟩
  rcases hk with hk | hk | rfl
  · cases hk
  · cases hk
  · obtain ⟨c, hl⟩ := hl
    cases hm with
    | self => cases hl
    | kid hk h =>
      cases List.mem_singleton.mp hk
      cases h with
      | self => cases hl
      | kid hk _ => cases hk

/-- `def __dir__(): pass` in `__init__.py` -/
def moduleDir : Node := nd .body (.functionDef "__dir__") 1 [nd .args .arguments 1 [], nd .body .pass 1 []]
/-- Example: a function of a module, in a `finally` clause -/
theorem C72_witness_dir : ∃ s k m, tour placesEnv (prog [nd .body .try 1 [nd .body .pass 1 [], nd .finalbody (.functionDef "__dir__") 1 [nd .args .arguments 1 []]]]) S.init = .ok s ∧
    s.has .moduleDirFunc = true ∧ k ∈ (prog [nd .body .try 1 [nd .body .pass 1 [], nd .finalbody (.functionDef "__dir__") 1 [nd .args .arguments 1 []]]]).kids ∧
    Finals k m ∧ ModuleFunction m "__dir__" 0 := by
  obtain ⟨k, hk, m, h1, h2⟩ := C72_dir (env := placesEnv) (p := prog [nd .body .try 1 [nd .body .pass 1 [], nd .finalbody (.functionDef "__dir__") 1 [nd .args .arguments 1 []]]])
    rfl rfl (by decide +kernel)
  exact ⟨_, k, m, rfl, by decide +kernel, hk, h1, h2⟩
/-- It is not one within a class or a condition. -/
theorem C72_witness_nodir : ∃ s, tour placesEnv (prog [nd .body (.classDef "A") 1 [moduleDir], nd .body .if 1 [nm .test "x", moduleDir]]) S.init = .ok s ∧
    .moduleDirFunc ∉ s.flags := ⟨_, rfl, by decide +kernel⟩

/-- Example: `x[...]`, and `...` alone -/
theorem C72_witness_ellipsis : ∃ s t, tour placesEnv (prog [st 1 (nd .value .subscript 1 [nm .value "x", nd .slice (.const .ellipsis) 1 []])]) S.init = .ok s ∧
    .ellipsisOutOfSlices ∉ s.flags ∧ tour placesEnv (prog [st 1 (nd .value (.const .ellipsis) 1 [])]) S.init = .ok t ∧ .ellipsisOutOfSlices ∈ t.flags :=
  ⟨_, _, rfl, by decide +kernel, rfl, by decide +kernel⟩

end Vermin.Props
