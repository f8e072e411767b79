import Verif.Lemmas.Names
import Verif.Spec.Spelt
/-
Names of attributes of calls and of literals.
-/
namespace Vermin
open Py Spec

/-- Attributes, calls, and displays -/
def loud (n : Node) : Bool :=
  match n.kind with
  | .attribute _ => true
  | .call => true
  | .dict _ => true
  | .set => true
  | .list _ => true
  | _ => false

theorem plain_quiet {n m : Node} (h : Plain n) (hm : In m n) : loud m = false := by
  obtain ⟨h1, h2, h3⟩ := h m hm
  unfold loud
  split
  · rename_i a ha; exact absurd ha (h1 a)
  · rename_i ha; exact absurd ha h2
  · rename_i ha; exact absurd (.dict ha) (h3 _)
  · rename_i ha; exact absurd (.set ha) (h3 _)
  · rename_i ha; exact absurd (.list ha) (h3 _)
  · rfl

/-! ### The walk -/

theorem merge_filter {α : Type} {q : α → Bool} : ∀ {a b : List (List α)}, (∀ x ∈ b.flatten, q x = false) → (mergeLevels a b).flatten.filter q = a.flatten.filter q
  | [], b, h => by
    rw [mergeLevels]
    exact List.filter_eq_nil_iff.mpr fun x hx => by rw [h x hx]; nofun
  | a :: as, [], _ => by simp [mergeLevels]
  | a :: as, b :: bs, h => by
    have h1 : b.filter q = [] := List.filter_eq_nil_iff.mpr fun x hx => by rw [h x (by simp [hx])]; nofun
    have h2 := merge_filter (q := q) (a := as) (b := bs) fun x hx => h x (by rw [List.flatten_cons]; exact List.mem_append_right _ hx)
    simp [mergeLevels, h1, h2]

theorem levels_head (n : Node) : ∃ r, levels (fun _ => false) n = [n] :: r := by
  cases n; exact ⟨_, by rw [levels]; rfl⟩

theorem walk_cons {n v : Node} {ks : List Node} (h : n.kids = v :: ks) : ∃ rest, walk n = n :: v :: rest := by
  obtain ⟨i, ls⟩ := n
  replace h : ls = v :: ks := h
  subst h
  obtain ⟨r, hr⟩ := levels_head v
  unfold walk
  rw [levels, levelsList, hr]
  cases levelsList (fun _ => false) ks with
  | nil => exact ⟨r.flatten, by simp [mergeLevels]⟩
  | cons a as => exact ⟨a ++ (mergeLevels r as).flatten, by simp [mergeLevels]⟩

theorem walk_filter {q : Node → Bool} {n v : Node} {ks : List Node} (h : n.kids = v :: ks) (hq : ∀ k ∈ ks, ∀ m, In m k → q m = false) :
    (walk n).filter q = [n].filter q ++ (walk v).filter q := by
  obtain ⟨i, ls⟩ := n
  replace h : ls = v :: ks := h
  subst h
  unfold walk
  rw [levels, levelsList]
  simp only [Bool.false_eq_true, if_false, List.flatten_cons, List.filter_append]
  rw [merge_filter]
  intro x hx
  obtain ⟨k, hk, hm⟩ := mem_levelsList hx
  exact hq k hk x hm

theorem walk_quiet {q : Node → Bool} {n : Node} (hq : ∀ k ∈ n.kids, ∀ m, In m k → q m = false) : (walk n).filter q = [n].filter q := by
  obtain ⟨i, ls⟩ := n
  unfold walk
  rw [levels]
  simp only [Bool.false_eq_true, if_false, List.flatten_cons, List.filter_append]
  rw [show (levelsList (fun _ => false) ls).flatten.filter q = [] from List.filter_eq_nil_iff.mpr fun x hx => by
    obtain ⟨k, hk, hm⟩ := mem_levelsList hx
    rw [hq k hk x hm]; nofun, List.append_nil]

/-! ### The loop -/

theorem attrLoop_primi (ms : Dict String String) (full : List (Option String)) (p : Bool) (l : List Node) :
    attrLoop ms full (p || headBuiltin full) l = attrLoop ms full p l := by
  cases l with
  | nil => rfl
  | cons a as => unfold attrLoop; rw [Bool.or_assoc, Bool.or_self]

theorem ite_more {α : Type} (c : Prop) [Decidable c] (a b : List α) : ∃ l, (if c then a ++ b else a) = a ++ l := by
  split
  · exact ⟨_, rfl⟩
  · exact ⟨[], by simp⟩

theorem attrStep_grows {ms : Dict String String} {full full' : List (Option String)} {p : Bool} {a : Node} (h : attrStep ms full p a = .ok full') :
    full.length ≤ full'.length := by
  obtain ⟨l, rfl⟩ : ∃ l, full' = full ++ l := by
    unfold attrStep at h
    split at h
    · injection h with h; exact ⟨_, h.symm⟩
    · injection h with h; exact ⟨_, h.symm⟩
    · injection h with h; subst h; exact ite_more _ _ _
    · injection h with h; subst h; exact ite_more _ _ _
    · injection h with h; subst h; exact ite_more _ _ _
    · split at h
      · injection h with h; exact ⟨[], by rw [h, List.append_nil]⟩
      · unfold attrConst at h
        split at h
        all_goals try (injection h with h; subst h; exact ite_more _ _ _)
        · split at h
          · cases h
          · injection h with h; subst h; exact ite_more _ _ _
        · injection h with h; exact ⟨[], by rw [h, List.append_nil]⟩
    · injection h with h; exact ⟨[], by rw [h, List.append_nil]⟩
  simp

theorem attrStep_quiet {ms : Dict String String} {full : List (Option String)} (p : Bool) {a : Node} (ha : loud a = false) (hl : 2 ≤ full.length) :
    attrStep ms full p a = .ok full := by
  have h1 : ∀ t, freshOne full t = false := by
    intro t
    unfold freshOne
    cases full with
    | nil => simp at hl
    | cons x xs => simp; intro _ h; simp [h] at hl
  unfold loud at ha
  unfold attrStep
  split <;> rename_i hk
  case h_6 =>
    split
    · rfl
    · unfold attrConst
      split <;> try (rw [h1]; rfl)
      · split
        · simp at hl
        · rename_i x xs
          cases xs with
          | nil => simp at hl
          | cons => simp
      · rfl
  case h_7 => rfl
  all_goals (rw [hk] at ha; cases ha)

/-- Constants and other nodes that are not `loud` don't matter when there are two names. -/
theorem attrLoop_loud (ms : Dict String String) : ∀ (l : List Node) (full : List (Option String)) (p : Bool), 2 ≤ full.length →
    attrLoop ms full p l = attrLoop ms full p (l.filter loud)
  | [], _, _, _ => rfl
  | a :: as, full, p, h => by
    cases ha : loud a with
    | true =>
      rw [List.filter_cons_of_pos ha]
      unfold attrLoop
      dsimp only
      cases hs : attrStep ms full (p || headBuiltin full) a with
      | ok full' => exact attrLoop_loud ms as _ _ (Nat.le_trans h (attrStep_grows hs))
      | error => rfl
    | false =>
      rw [List.filter_cons_of_neg (by simp [ha]), attrLoop, attrStep_quiet _ ha h]
      dsimp only
      rw [attrLoop_primi]
      exact attrLoop_loud ms as _ _ h

/-- The display is going to be noticed. -/
def Ready (k : Base) (full : List (Option String)) (p : Bool) : Prop :=
  k = .display → p = false ∧ full ≠ [] ∧ (∀ x, full.head? = some (some x) → x ∉ valueTypes) ∧ ∀ x, full.getLast? = some (some x) → x ∉ valueTypes

theorem Ready.head {full : List (Option String)} {p : Bool} (h : Ready .display full p) : (p || headBuiltin full) = false := by
  obtain ⟨h1, h2, h3, _⟩ := h rfl
  rw [h1, Bool.false_or]
  cases full with
  | nil => rfl
  | cons x xs =>
    cases x with
    | none => rfl
    | some f =>
      have := h3 f rfl
      unfold valueTypes at this
      unfold headBuiltin builtinTypes
      simpa using this

theorem Ready.fresh {full : List (Option String)} {p : Bool} (h : Ready .display full p) {t : String} (ht : t ∈ valueTypes) : freshEnds full t = true := by
  obtain ⟨h1, h2, h3, h4⟩ := h rfl
  unfold freshEnds
  simp only [Bool.or_eq_true, Bool.and_eq_true, decide_eq_true_eq]
  exact .inr ⟨fun hx => h3 _ hx ht, fun hx => h4 _ hx ht⟩

theorem Ready.attr {k : Base} {full : List (Option String)} {p : Bool} (h : Ready k full p) {b : String} (hb : k = .display → b ∉ valueTypes) :
    Ready k (full ++ [some b]) (p || headBuiltin full) := fun hk => by
  subst hk
  refine ⟨h.head, by simp, fun x hx => ?_, fun x hx => ?_⟩
  · obtain ⟨_, h2, h3, _⟩ := h rfl
    replace hx : full.head? = some (some x) := by cases full <;> simp_all
    exact h3 x hx
  · rw [List.getLast?_append, List.getLast?_singleton] at hx
    injection hx with hx
    injection hx with hx
    exact hx ▸ hb rfl

theorem display_type {n : Node} {t : String} (hd : Brackets n t) : t ∈ valueTypes := by
  cases hd <;> simp [valueTypes]

theorem display_step {ms : Dict String String} {n : Node} {t : String} (hd : Brackets n t) {full : List (Option String)} {p : Bool} (hr : Ready .display full p) :
    attrStep ms full (p || headBuiltin full) n = .ok (full ++ [some t]) ∧ loud n = true := by
  have hf := hr.fresh (display_type hd)
  unfold attrStep loud
  cases hd <;> rename_i h <;> simp [h, hr.head, hf]

theorem field_first {n v : Node} {f : Fld} {ks : List Node} (hk : n.kids = v :: ks) (hf : v.fld = f) : n.field f = some v := by
  unfold Node.field
  rw [hk, List.find?_cons_of_pos (by simp [hf])]

/-- Only attributes, calls, and displays are expressions that are spelt with several names. -/
theorem spelt_name {n : Node} {k : Base} {a : String} {bs : List String} (h : Spelt n k a bs) : n.nameId = none := by
  unfold Node.nameId
  cases h with
  | name h => simp [h]
  | calls h => simp [h]
  | display h => cases h <;> rename_i h <;> simp [h]
  | attr h => simp [h]
  | call h => simp [h]

/-- The name that stands for the base -/
def speltBase (ms : Dict String String) : Base → String → String
  | .name, a => resolveModuleName ms a
  | _, a => a

theorem attr_step {ms : Dict String String} {n v : Node} {b : String} {ks : List Node} (h : n.kind = .attribute b) (hk : n.kids = v :: ks) (hf : v.fld = .value)
    (full : List (Option String)) (p : Bool) :
    attrStep ms full p n = .ok (full ++ some b :: (match v.nameId with | some x => [some (resolveModuleName ms x)] | none => [])) := by
  unfold attrStep
  simp only [h, attrNames, field_first hk hf, Option.bind]
  cases v.nameId <;> rfl
theorem call_step {ms : Dict String String} {n v : Node} {ks : List Node} (h : n.kind = .call) (hk : n.kids = v :: ks) (hf : v.fld = .func)
    (full : List (Option String)) (p : Bool) :
    attrStep ms full p n = .ok (full ++ (match v.nameId with | some x => [some x] | none => [])) := by
  unfold attrStep
  simp only [h, callNames, field_first hk hf, Option.bind]
  cases v.nameId <;> rfl

theorem attrLoop_cons {ms : Dict String String} {full full' : List (Option String)} {p : Bool} {a : Node} {as : List Node}
    (h : attrStep ms full (p || headBuiltin full) a = .ok full') : attrLoop ms full p (a :: as) = attrLoop ms full' (p || headBuiltin full) as := by
  rw [attrLoop, h]

/-- The names along the expression -/
theorem spelt_loud {ms : Dict String String} {n : Node} {k : Base} {a : String} {bs : List String} (h : Spelt n k a bs) :
    ∀ full p, Ready k full p → attrLoop ms full p ((walk n).filter loud) = .ok (full ++ bs.reverse.map some ++ [some (speltBase ms k a)]) := by
  have leaf : ∀ {v : Node} {a : String} {c : Ctx}, v.kind = .name a c → v.kids = [] → (walk v).filter loud = [] := by
    intro v a c hv hk
    rw [walk_quiet (by rw [hk]; nofun)]
    simp [loud, hv]
  have quiet : ∀ {args : List Node}, (∀ k ∈ args, Plain k) → ∀ k ∈ args, ∀ m, In m k → loud m = false := fun h k hk m hm => plain_quiet (h k hk) hm
  induction h with
  | @name n v a b c hn hk hf hv hvk =>
    intro full p _
    rw [walk_filter hk (by nofun), leaf hv hvk, show [n].filter loud = [n] by simp [loud, hn], List.append_nil, attrLoop_cons (attr_step hn hk hf _ _), attrLoop]
    simp [Node.nameId, hv, speltBase]
  | @calls n v a c args hn hk hf hv hvk ha =>
    intro full p _
    rw [walk_filter hk (quiet ha), leaf hv hvk, show [n].filter loud = [n] by simp [loud, hn], List.append_nil, attrLoop_cons (call_step hn hk hf _ _), attrLoop]
    simp [Node.nameId, hv, speltBase]
  | @display n a hd ha =>
    intro full p hr
    rw [walk_quiet (quiet ha), show [n].filter loud = [n] by simp [(display_step (ms := ms) hd hr).2], attrLoop_cons (display_step hd hr).1, attrLoop]
    simp [speltBase]
  | @attr n v k a b bs hn hk hf hs hb ih =>
    intro full p hr
    rw [walk_filter hk (by nofun), show [n].filter loud = [n] by simp [loud, hn], List.singleton_append, attrLoop_cons (attr_step hn hk hf _ _), spelt_name hs,
      ih _ _ (hr.attr hb)]
    simp
  | @call n v k a b bs args hn hk hf hv hs ha ih =>
    intro full p hr
    rw [walk_filter hk (quiet ha), show [n].filter loud = [n] by simp [loud, hn], List.singleton_append, attrLoop_cons (call_step hn hk hf _ _), spelt_name hs]
    dsimp only
    rw [List.append_nil, attrLoop_primi, ih _ _ hr]

/-- Constants among the arguments don't matter. -/
theorem spelt_loop {ms : Dict String String} {n : Node} {k : Base} {a : String} {bs : List String} (h : Spelt n k a bs) {full : List (Option String)} (hf : full ≠ [])
    {p : Bool} (hr : Ready k full p) : attrLoop ms full p (walk n) = attrLoop ms full p ((walk n).filter loud) := by
  have hlen : 1 ≤ full.length := by cases full <;> simp_all
  have first : ∀ {full'}, loud n = true → attrStep ms full (p || headBuiltin full) n = .ok full' → 2 ≤ full'.length →
      attrLoop ms full p (walk n) = attrLoop ms full p ((walk n).filter loud) := by
    intro full' h1 h2 h3
    obtain ⟨rest, hw⟩ := walk_head n
    rw [hw, List.filter_cons_of_pos h1, attrLoop_cons h2, attrLoop_cons h2, attrLoop_loud ms _ _ _ h3]
  cases h with
  | name hn hk hf => exact first (by simp [loud, hn]) (attr_step hn hk hf _ _) (by simp; omega)
  | calls hn hk hf hv => exact first (by simp [loud, hn]) (call_step hn hk hf _ _) (by simp [Node.nameId, hv]; omega)
  | display hd => exact first (display_step (ms := ms) hd hr).2 (display_step hd hr).1 (by simp; omega)
  | attr hn hk hf => exact first (by simp [loud, hn]) (attr_step hn hk hf _ _) (by simp; omega)
  | @call _ v _ _ b _ _ hn hk hf hv hs ha =>
    have h1 : loud n = true := by simp [loud, hn]
    have h2 : loud v = true := by simp [loud, hv]
    obtain ⟨rest, hw⟩ := walk_cons hk
    have h3 := call_step (ms := ms) hn hk hf full (p || headBuiltin full)
    rw [spelt_name hs] at h3
    obtain ⟨full', h4, h5⟩ : ∃ full', attrStep ms (full ++ []) ((p || headBuiltin full) || headBuiltin (full ++ [])) v = .ok full' ∧ 2 ≤ full'.length := by
      unfold attrStep
      simp only [hv, attrNames]
      exact ⟨_, rfl, by simp; omega⟩
    rw [hw, List.filter_cons_of_pos h1, List.filter_cons_of_pos h2, attrLoop_cons h3, attrLoop_cons h3, attrLoop_cons h4, attrLoop_cons h4,
      attrLoop_loud ms _ _ _ h5]

theorem spelt_ne {n : Node} {k : Base} {a b : String} {bs : List String} (h : Spelt n k a bs) (hn : n.kind = .attribute b) : bs ≠ [] := by
  cases h with
  | name => nofun
  | calls h => rw [hn] at h; cases h
  | display h => cases h <;> rename_i h <;> rw [hn] at h <;> cases h
  | attr => simp
  | call h => rw [hn] at h; cases h

/-- The names of an attribute are those it is spelt with. -/
theorem spelt_names {n : Node} {k : Base} {a b : String} {bs : List String} (h : Spelt n k a bs) (hn : n.kind = .attribute b) (ms : Dict String String) :
    attributeName ms n = .ok (some (speltBase ms k a) :: bs.map some) := by
  have key : attrLoop ms [] false (walk n) = .ok (bs.reverse.map some ++ [some (speltBase ms k a)]) := by
    cases h with
    | @name _ v a _ c h1 hk hf hv hvk =>
      have hc := chain_loop (ms := ms) (.one h1 hk hf hv hvk) [] false
      simpa [speltBase] using hc
    | calls h => rw [hn] at h; cases h
    | display h => cases h <;> rename_i h <;> rw [hn] at h <;> cases h
    | @attr _ v _ _ b _ h1 hk hf hs hb =>
      have hw : walk n = n :: walk v := by
        obtain ⟨i, ks⟩ := n
        replace hk : ks = [v] := hk
        subst hk
        unfold walk
        rw [levels]
        simp only [Bool.false_eq_true, if_false, levelsList, List.flatten_cons, List.singleton_append]
        congr 2
        cases levels (fun _ => false) v <;> rfl
      have hr : Ready k ([] ++ [some b]) (false || headBuiltin []) := fun hk => by
        refine ⟨rfl, nofun, fun x hx => ?_, fun x hx => ?_⟩
        · injection hx with hx; injection hx with hx; exact hx ▸ hb hk
        · injection hx with hx; injection hx with hx; exact hx ▸ hb hk
      rw [hw, attrLoop_cons (attr_step h1 hk hf _ _), spelt_name hs]
      dsimp only
      rw [spelt_loop hs (by nofun) hr, spelt_loud hs _ _ hr]
      simp
    | call h => rw [hn] at h; cases h
  unfold attributeName
  rw [key]
  simp

theorem path_ne {n : Node} {a : String} {bs : List String} (h : Path n a bs) : bs ≠ [] := by
  obtain ⟨⟨b, hb⟩, h⟩ := h
  exact spelt_ne h hb

theorem path_names {n : Node} {a : String} {bs : List String} (h : Path n a bs) (ms : Dict String String) :
    attributeName ms n = .ok (some (resolveModuleName ms a) :: bs.map some) := by
  obtain ⟨⟨b, hb⟩, h⟩ := h
  exact spelt_names h hb ms

/-- The names of an attribute of a constant -/
theorem literal_names {n : Node} {t b : String} (h : OfLiteral n t b) (ms : Dict String String) : attributeName ms n = .ok [some t, some b] := by
  obtain ⟨v, c, hn, hk, hf, hv, hvk, hc, hb⟩ := h
  have hw : walk n = [n, v] := by
    obtain ⟨i, ks⟩ := n
    obtain ⟨j, ls⟩ := v
    replace hk : ks = [.mk j ls] := hk
    replace hvk : ls = [] := hvk
    subst hk hvk
    rfl
  have hnm : v.nameId = none := by simp [Node.nameId, hv]
  have hb' : headBuiltin [some b] = false := by
    unfold headBuiltin builtinTypes
    unfold valueTypes at hb
    simpa using hb
  have hstep : attrStep ms [some b] (false || headBuiltin [some b]) v = .ok [some b, some t] := by
    unfold valueTypes at hb
    unfold attrStep
    rw [hb']
    cases hc <;> simp [hv, attrConst, freshOne] <;> (rintro rfl; simp at hb)
  have h1 := attr_step (ms := ms) hn hk hf [] (false || headBuiltin [])
  rw [hnm] at h1
  have h2 : attrLoop ms [] false (walk n) = .ok [some b, some t] := by
    rw [hw, attrLoop_cons h1]
    show attrLoop ms [some b] false [v] = _
    rw [attrLoop_cons hstep, attrLoop]
  unfold attributeName
  rw [h2]
  rfl

/-! ### All names -/

theorem attrStep_from {ms : Dict String String} {full full' : List (Option String)} {p : Bool} {a : Node} (h : attrStep ms full p a = .ok full') :
    ∃ l, full' = full ++ l ∧ ∀ x ∈ l, Contributes ms a x := by
  have one : ∀ {c : Prop} [Decidable c] {t : Option String}, Contributes ms a t → ∃ l, (if c then full ++ [t] else full) = full ++ l ∧ ∀ x ∈ l, Contributes ms a x := by
    intro c _ t ht
    split
    · exact ⟨[t], rfl, fun x hx => by rw [List.mem_singleton.mp hx]; exact ht⟩
    · exact ⟨[], by simp, nofun⟩
  unfold attrStep at h
  split at h
  · rename_i b hb
    injection h with h
    refine ⟨_, h.symm, fun x hx => ?_⟩
    rcases List.mem_cons.mp hx with rfl | hx
    · exact .attr hb
    · split at hx
      · rename_i y hy
        rw [List.mem_singleton.mp hx]
        obtain ⟨v, hv, hy⟩ := Option.bind_eq_some_iff.mp hy
        exact .value hb hv (Acting.nameId_iff hy)
      · cases hx
  · rename_i hb
    injection h with h
    refine ⟨_, h.symm, fun x hx => ?_⟩
    unfold callNames at hx
    split at hx
    · rename_i y hy
      rw [List.mem_singleton.mp hx]
      obtain ⟨v, hv, hy⟩ := Option.bind_eq_some_iff.mp hy
      exact .func hb hv (Acting.nameId_iff hy)
    · cases hx
  · rename_i hb; injection h with h; subst h; exact one (.display (.dict hb))
  · rename_i hb; injection h with h; subst h; exact one (.display (.set hb))
  · rename_i hb; injection h with h; subst h; exact one (.display (.list hb))
  · rename_i hb
    split at h
    · injection h with h; exact ⟨[], by simp [h], nofun⟩
    · unfold attrConst at h
      split at h
      · injection h with h; subst h; exact one (.literal hb (.str _))
      · injection h with h; subst h; exact one (.literal hb (.int _))
      · injection h with h; subst h; exact one (.literal hb (.float _))
      · split at h
        · cases h
        · injection h with h; subst h; exact one (.complex hb)
      · injection h with h; subst h; exact one (.literal hb (.bytes _))
      · injection h with h; exact ⟨[], by simp [h], nofun⟩
  · injection h with h; exact ⟨[], by simp [h], nofun⟩

theorem attrLoop_from {ms : Dict String String} : ∀ {as : List Node} {full full' : List (Option String)} {p : Bool}, attrLoop ms full p as = .ok full' →
    ∃ l, full' = full ++ l ∧ ∀ x ∈ l, ∃ a ∈ as, Contributes ms a x
  | [], full, full', p, h => by
    injection h with h
    exact ⟨[], by simp [h], nofun⟩
  | a :: as, full, full', p, h => by
    rw [attrLoop] at h
    cases hs : attrStep ms full (p || headBuiltin full) a with
    | error e => rw [hs] at h; cases h
    | ok f =>
      rw [hs] at h
      obtain ⟨l, rfl, h1⟩ := attrStep_from hs
      obtain ⟨l', rfl, h2⟩ := attrLoop_from h
      refine ⟨l ++ l', by simp, fun x hx => ?_⟩
      rcases List.mem_append.mp hx with hx | hx
      · exact ⟨a, by simp, h1 x hx⟩
      · obtain ⟨b, hb, h3⟩ := h2 x hx
        exact ⟨b, by simp [hb], h3⟩

/-- All names of an attribute are those of parts of it, and the last is its own. -/
theorem names_from {ms : Dict String String} {n : Node} {full : List (Option String)} (h : attributeName ms n = .ok full) :
    (∀ x ∈ full, ∃ m, In m n ∧ Contributes ms m x) ∧ ∀ b, n.kind = .attribute b → full.getLast? = some (some b) := by
  unfold attributeName at h
  split at h
  · rename_i l hl
    injection h with h
    subst h
    constructor
    · intro x hx
      obtain ⟨l', h1, h2⟩ := attrLoop_from hl
      rw [List.nil_append] at h1
      subst h1
      obtain ⟨a, ha, h3⟩ := h2 x (List.mem_reverse.mp hx)
      exact ⟨a, mem_walk ha, h3⟩
    · intro b hb
      obtain ⟨rest, hw⟩ := walk_head n
      rw [hw, attrLoop] at hl
      unfold attrStep at hl
      simp only [hb] at hl
      obtain ⟨l', h1, _⟩ := attrLoop_from hl
      rw [h1]
      simp [attrNames]
  · cases h

end Vermin
