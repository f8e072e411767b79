import Verif.Lemmas.Stack
import Verif.Lemmas.Dotted
/-
The values of keyword arguments are looked at.
-/
namespace Vermin
open Py V Spec

theorem _root_.Vermin.Spec.Reach.seen {env : Env} {p m n : Node} (h : Reach env m n) : Seen env p m n := by
  induction h with
  | self n => exact .self n
  | kid h _ ih => exact .kid h ih

theorem dot_dotted (a b : String) (l : List String) : '.' ∈ (dotted (some a :: some b :: l.map some)).toList := by
  have := dotted_text a (b :: l)
  rw [List.map_cons] at this
  rw [this]
  have key : ∀ (l : List String) (a : String), '.' ∈ a.toList → '.' ∈ (dottedText a l).toList := by
    intro l
    induction l with
    | nil => intro a h; exact h
    | cons b l ih => intro a h; exact ih _ (by simp [h])
  exact key l (a ++ "." ++ b) (by simp)

theorem dot_text (a : String) {bs : List String} (h : bs ≠ []) : '.' ∈ (dottedText a bs).toList := by
  cases bs with
  | nil => exact absurd rfl h
  | cons b bs => rw [← dotted_text]; exact dot_dotted a b bs

theorem splitDots_drop {f : String} (h : '.' ∈ f.toList) : ∃ b l, (splitDots f).drop 1 = b :: l := by
  unfold splitDots
  cases hs : splitOn (· == '.') f.toList with
  | nil => exact absurd hs (splitOn_ne_nil _ _)
  | cons w ws =>
    cases ws with
    | nil =>
      have := (splitOn_singleton hs).2 '.' (by simpa using h)
      simp at this
    | cons x xs => exact ⟨_, _, rfl⟩

section
variable {env : Env} {P : Facts} {p n : Node}

theorem kwTarget_dot (s : S) {f : String} (h : '.' ∈ f.toList) : '.' ∈ (kwTarget s f).toList := by
  obtain ⟨b, l, hl⟩ := splitDots_drop h
  unfold kwTarget kwTargetVar
  rw [hl]
  repeat' split
  · exact dot_dotted _ _ []
  · exact dot_dotted _ _ []
  · exact dot_dotted _ _ (b :: l)
  · exact dot_dotted _ _ l
  · exact h

theorem noValue {x : String} (h : Unassigned p x) {m : Node} {a : S} (hl : Learnt env p m a) : Dict.get? a.nameRes x = none := by
  cases hg : Dict.get? a.nameRes x with
  | none => rfl
  | some y =>
    obtain ⟨k, hk, ⟨v, _, h1, _⟩ | ⟨h1, _, ⟨t, c, h2, h3⟩, _⟩⟩ := (hl.values x y hg).emits
    · exact absurd h1 (h.1 k v hk)
    · exact absurd h3 (h.2 k t c hk h1 h2)

theorem chain_ne {e : Node} {y : String} {bs : List String} (h : Chain e y bs) : bs ≠ [] := by cases h <;> simp

theorem undefined_dot (hd : Dotless p) {x : String} (h : '.' ∈ x.toList) : Undefined p x := fun k hk hx => hd k x hk hx h

theorem keyword_value (hP : Keeps env p P) {kw v : Node} {k : Option String} (hn : Named kw) (hk : kw.kind = .keyword k) (hv : v ∈ kw.kids) {f : String} {s t : S} (hl : Known env P p kw s)
    (hf : f ∈ s.fnStack) (hd : Undefined p (kwTarget s f)) (he : env.cfg.isExcludedKwarg (kwTarget s f) (kwText k) = false) (h : visit env kw s = .ok t) :
    ∃ a b, More s a ∧ Known env P p v a ∧ visit env v a = .ok b ∧ More b t := by
  have hc := closed_traced env P p kw hP
  rw [visitMk env kw] at h
  unfold visitAlg at h
  simp only [hk] at h
  unfold visitKeyword V.rd at h
  dsimp only at h
  obtain ⟨u, h1, h2⟩ := seq_run h
  have hany : (s.fnStack.any fun f => kwargsAdded env s (kwTarget s f) k) = true :=
    List.any_eq_true.mpr ⟨f, hf, by unfold kwargsAdded; rw [not_userDef hl hd, he]; rfl⟩
  rw [hany] at h2
  replace h2 : gen env kw (visitKids env kw.kids) u = .ok t := h2
  have ho : ∀ g ∈ s.fnStack, At env p kw (.kwarg (kwTarget s g) k) := fun g hg => emitsIn_mono (fun _ h => h.toLearnt) ⟨hk, s, g, hl, hg, Acting.kwTarget_owner s g⟩
  have hlu : Known env P p kw u :=
    (hc.each (f' := fun f => addKwargs env (kwTarget s f) k s.line) (fun g hg => hc.kwarg _ (ho g hg)) s u hl h1).1
  have hg : More s u := Rel.more.grow (Growing.each (fun x _ => (closed_growing env kw).kwarg _ trivial) s u h1)
  have hst : u.fnStack = s.fnStack := (closed_stays env kw).each (f' := fun f => addKwargs env (kwTarget s f) k s.line)
    (fun g _ => (closed_stays env kw).kwarg _ trivial) hn s u h1
  obtain ⟨a, b, h3, h4, _, h5, h6⟩ := gen_keyword hP hn hv hlu (hst ▸ hf) h2
  exact ⟨a, b, Rel.more.trans hg h3, h4, h5, h6⟩

theorem passed_value (hP : Keeps env p P) {kw v : Node} (hp : Passed env p n kw) (hv : v ∈ kw.kids) {s t : S} (hl : Known env P p n s) (h : visit env n s = .ok t) :
    ∃ a b, More s a ∧ Known env P p v a ∧ visit env v a = .ok b ∧ More b t := by
  obtain ⟨k, hk, hx⟩ := hp.keyword
  obtain ⟨e, he, hf⟩ := hp.func
  have hes : (∃ x c, e.kind = .name x c) ∨ ∃ a, e.kind = .attribute a := by
    rcases hf with ⟨a, bs, hf⟩ | ⟨f, ⟨c, hf⟩, _⟩
    · exact .inr (chain_attr hf)
    · exact .inl ⟨f, c, hf⟩
  obtain ⟨u, f, w, b, h0, h1, h2, h3, h4, h5, h6⟩ :=
    call_keyword hP hp.named (fun hm => hp.unmarked ⟨by rw [hp.call]; trivial, hm⟩) hp.arg hp.call he hes hl h
  have hd : Undefined p (kwTarget w f) := by
    by_cases hdot : '.' ∈ f.toList
    · exact undefined_dot hp.dotless (kwTarget_dot w hdot)
    · rcases hf with ⟨a, bs, hf⟩ | ⟨g, ⟨c, hg⟩, hu, ha⟩
      · obtain ⟨b, hb⟩ := chain_attr hf
        rcases h2 with ⟨c', h⟩ | ⟨_, full, hr, h⟩
        · rw [hb] at h; cases h
        · rw [chain_reads hf hr] at h
          exact absurd (h ▸ dot_text _ (chain_ne hf)) hdot
      · rcases h2 with ⟨c', h⟩ | ⟨⟨b, h⟩, _⟩
        · rw [hg] at h
          injection h with h
          subst h
          have hsp : splitDots g = [g] := by
            have := splitOn_of_none (p := (· == '.')) (s := g.toList) fun c hc => by
              rw [beq_eq_false_iff_ne]
              rintro rfl
              exact hdot hc
            unfold splitDots
            rw [this]
            simp
          unfold kwTarget kwTargetVar
          rw [hsp, List.headD_cons, noValue ha h3.toLearnt]
          repeat' split
          · exact undefined_dot hp.dotless (dot_dotted _ _ [])
          · exact undefined_dot hp.dotless (dot_dotted _ _ [])
          all_goals first | contradiction | exact hu
        · rw [hg] at h; cases h
  have hxx : ∀ g, env.cfg.isExcludedKwarg g (kwText k) = false := fun g => by
    have := hx g
    cases k <;> exact this
  obtain ⟨a', b', h7, h8, h9, h10⟩ := keyword_value hP (fun m hm => hp.named m (.kid hp.arg hm)) hk hv h3 h4 hd (hxx _) h5
  exact ⟨a', b', Rel.more.trans h0 h7, h8, h9, Rel.more.trans h10 h6⟩

/-- Visiting `n` visits every part that is looked at, with what may be known there. -/
theorem seen_learnt (hP : Keeps env p P) {m : Node} (h : Seen env p m n) {s t : S} (hl : Known env P p n s) (hv : visit env n s = .ok t) :
    ∃ a b, More s a ∧ Known env P p m a ∧ visit env m a = .ok b ∧ More b t := by
  induction h generalizing s t with
  | self n => exact ⟨s, t, Rel.more.grow (.refl s), hl, hv, Rel.more.grow (.refl t)⟩
  | kid hk _ ih =>
    obtain ⟨a, b, h1, h2, h3, h4⟩ := kid_learnt hP Rel.more hk (fun _ => more_defs) (fun _ => more_loops) (fun _ => more_counts) hl hv
    obtain ⟨a', b', h1', h2', h3', h4'⟩ := ih h2 h3
    exact ⟨a', b', Rel.more.trans h1 h1', h2', h3', Rel.more.trans h4' h4⟩
  | value hp hk _ ih =>
    obtain ⟨a, b, h1, h2, h3, h4⟩ := passed_value hP hp hk hl hv
    obtain ⟨a', b', h1', h2', h3', h4'⟩ := ih h2 h3
    exact ⟨a', b', Rel.more.trans h1 h1', h2', h3', Rel.more.trans h4' h4⟩

/-- Visiting the program visits every part that is looked at. -/
theorem seen_visited {m : Node} (h : Seen env p m p) {t : S} (hv : visit env p S.init = .ok t) : ∃ a b, visit env m a = .ok b ∧ More b t := by
  obtain ⟨a, b, _, _, h1, h2⟩ := seen_learnt (keeps_anything env p) h { learnt_init env p with known := trivial } hv
  exact ⟨a, b, h1, h2⟩

/-- The visit of a program visits a statement, and then what comes after it, with the facts that the statement tells. -/
theorem after_run {i : Node} (h : After env p i n) {t : S} (hv : visit env p S.init = .ok t) :
    ∃ a b, Learnt env p i a ∧ visit env i a = .ok b ∧ ∀ P, Keeps env p P → P b.moduleAs b.importMemMod b.nameRes b.nameResType →
      ∃ c d, More b c ∧ Known env P p n c ∧ visit env n c = .ok d ∧ More d t := by
  obtain ⟨hk, l₁, l₂, k, hks, hkl, hr⟩ := h
  have hip : i ∈ p.kids := by rw [hks]; simp
  rw [visitMk env p] at hv
  unfold visitAlg at hv
  simp only [hk] at hv
  unfold gen at hv
  obtain ⟨w, h1, h2⟩ := seq_run hv
  obtain ⟨u, h3, h4⟩ := seq_run h1
  have hwt : More w t := by rw [upd_run h2]; exact Rel.more.grow { Grows.refl w with }
  have h0 := keeps_anything env p
  have hlu : Learnt env p p u := by
    obtain ⟨li, o, rfl⟩ := genEnter_run h3
    exact { learnt_init env p with }
  rw [hks, visitKids_append] at h4
  obtain ⟨a, b, h5, h6, h7⟩ := each_split h4
  have hla : Learnt env p p a := (each_known h0 fun k hk => by rw [hks]; simp [hk]).learnt hlu h5
  have hlb : Learnt env p p b := (traced_up hip (visit_traced env Anything p i h0)).learnt hla h6
  refine ⟨a, b, (learnt_down hip (learnt_known hla)).toLearnt, h6, fun P hP hb => ?_⟩
  obtain ⟨m₁, m₂, rfl⟩ := List.append_of_mem hkl
  have hkp : k ∈ p.kids := by rw [hks]; simp
  rw [visitKids_append] at h7
  obtain ⟨c, d, h8, h9, h10⟩ := each_split h7
  have hlc : Known env P p p c := (each_known hP (fun k hk => by rw [hks]; simp [hk]) b c { hlb with known := hb } h8).1
  obtain ⟨c', d', h11, h12, h13, h14⟩ := seen_learnt hP hr (learnt_down hkp hlc) h9
  exact ⟨c', d', Rel.more.trans (Rel.more.grow (each_growing _ _ _ h8)) h11, h12, h13,
    Rel.more.trans h14 (Rel.more.trans (Rel.more.grow (each_growing _ _ _ h10)) hwt)⟩

end
end Vermin
