import Verif.Props.Append
import Verif.Lemmas.Settled
/-
C105, C106: what is required by statements that have nothing to do with each other.
-/
namespace Vermin
open Py V Spec

/-! ### Proofs -/

theorem hasWord_some (x : String) : ∃ w, HasWord x w := by
  cases h : splitOn (· == '.') x.toList with
  | nil => exact absurd h (splitOn_ne_nil _ _)
  | cons w l => exact ⟨String.ofList w, by unfold HasWord; rw [h, String.toList_ofList]; exact List.mem_cons_self ..⟩

theorem splitOn_dot : ∀ a b : List Char, splitOn (· == '.') (a ++ '.' :: b) = splitOn (· == '.') a ++ splitOn (· == '.') b
  | [], b => by show (if _ then _ else _) = _; rw [if_pos (by decide)]; rfl
  | c :: a, b => by
    rw [List.cons_append, splitOn, splitOn, splitOn_dot a b]
    split
    · rfl
    · cases h : splitOn (· == '.') a with
      | nil => exact absurd h (splitOn_ne_nil _ _)
      | cons v l => rfl

theorem join_words (w : List Char) : ∀ l : List (List Char), w ∈ splitOn (· == '.') (join ['.'] l) → w = [] ∨ ∃ x ∈ l, w ∈ splitOn (· == '.') x
  | [], h => .inl (by simpa [join, splitOn] using h)
  | [x], h => .inr ⟨x, by simp, h⟩
  | x :: y :: l, h => by
    rw [join, List.append_assoc] at h
    · rcases List.mem_append.mp (splitOn_dot x (join ['.'] (y :: l)) ▸ h) with h | h
      · exact .inr ⟨x, by simp, h⟩
      · rcases join_words w (y :: l) h with h | ⟨z, hz, h⟩
        · exact .inl h
        · exact .inr ⟨z, by simp [List.mem_cons.mp hz], h⟩
    · simp

/-- The names that have none of the words -/
def FreeOf (T : String → Prop) (x : String) : Prop := ∀ w, HasWord x w → ¬ T w

theorem freeOf_apart {T : String → Prop} (hv : ∀ w ∈ valueWords, ¬ T w) : Apart (FreeOf T) where
  dotted l hl w hw := by
    unfold HasWord dotted at hw
    rw [String.toList_ofList] at hw
    rcases join_words _ _ hw with h | ⟨x, hx, h⟩
    · have : w = "" := String.toList_inj.mp (by rw [h]; rfl)
      exact this ▸ hv "" (by decide)
    · obtain ⟨o, ho, hx⟩ := List.mem_filterMap.mp hx
      cases o with
      | none => cases hx
      | some x' => cases hx; exact hl x' ho w h
  words x hx w hw v hv' := by
    unfold splitDots at hw
    obtain ⟨u, hu, rfl⟩ := List.mem_map.mp hw
    refine hx v ?_
    unfold HasWord at hv' ⊢
    rw [String.toList_ofList, splitOn_of_none (splitOn_free hu), List.mem_singleton] at hv'
    rw [hv']
    exact hu
  value w hw v hv' := by
    have : v = w := by
      unfold HasWord at hv'
      simp only [valueWords, List.mem_cons, List.not_mem_nil, or_false] at hw
      rcases hw with rfl | rfl | rfl | rfl | rfl | rfl | rfl | rfl | rfl <;>
        exact String.toList_inj.mp (List.mem_singleton.mp hv')
    exact this ▸ hv w hw

/-- The objects `...` in statements -/
def EllipsisIn (ps : List Node) (u : Nat) : Prop := ∃ l ∈ ps, ∃ e, In e l ∧ e.kind = .const .ellipsis ∧ e.info.uid = u

theorem strangers_foreign {ps qs : List Node} (h : Strangers ps qs) {k : Node} (hk : k ∈ qs) :
    Foreign (FreeOf (Taken ps)) (EllipsisIn ps) False k := fun m hm =>
  ⟨fun x hx w hw => h.names k hk m hm x hx w hw, fun hc ⟨l, hl, e, he, hke, hu⟩ => h.objects k hk m hm hc l hl e he hke hu, False.elim⟩

theorem unrelated_foreign {ps qs : List Node} (h : Unrelated ps qs) {k : Node} (hk : k ∈ qs) :
    Foreign (FreeOf fun w => Taken ps w ∨ Imported ps w) (EllipsisIn ps) True k := fun m hm =>
  ⟨fun x hx w hw ht => ht.elim (h.names k hk m hm x hx w hw) (h.modules k hk m hm x hx w hw),
   fun hc ⟨l, hl, e, he, hke, hu⟩ => h.objects k hk m hm hc l hl e he hke hu, fun _ => h.single k hk m hm⟩

/-- The words of the first name are words of a text. -/
theorem fullText_words {full : List (Option String)} {x w : String} (h : full.head? = some (some x)) (hw : HasWord x w) : HasWord (fullText full) w := by
  cases full with
  | nil => cases h
  | cons y l =>
    cases h
    show HasWord (dottedText x (l.filterMap id)) w
    unfold dottedText
    generalize l.filterMap id = bs
    clear l
    induction bs generalizing x with
    | nil => exact hw
    | cons b bs ih =>
      refine ih ?_
      unfold HasWord at hw ⊢
      have : (x ++ "." ++ b).toList = x.toList ++ '.' :: b.toList := by simp
      rw [this, splitOn_dot]
      exact List.mem_append.mpr (.inl hw)

/-- The modules that are found for statements are ones that they import, or parts of them. -/
theorem module_imported {env : Env} {i : Info} (hi : i.kind = .module) {ps : List Node}
    (ha : ∀ k ∈ ps, ∀ n, In n k → ∀ a ∈ n.fields .names, ∃ x y, a.kind = .alias x y) {m : String} (h : ModuleIn env (.mk i ps) m) :
    ∃ w, HasWord m w ∧ Imported ps w := by
  induction h with
  | @«import» n a m hn hk h1 h2 =>
    cases hn with
    | self => exact absurd (hi.symm.trans hk) (by simp)
    | kid hl hn =>
      obtain ⟨w, hw⟩ := hasWord_some m
      rcases h2 with ⟨y, h2⟩ | ⟨_, h2⟩
      · exact ⟨w, hw, _, hl, n, m, hn, .inl ⟨hk, a, h1, y, h2⟩, hw⟩
      · obtain ⟨x, y, h3⟩ := ha _ hl n hn a h1
        exact absurd h3 (h2 x y)
  | @source n m hn hk =>
    cases hn with
    | self => exact absurd (hi.symm.trans hk) (by simp)
    | kid hl hn =>
      obtain ⟨w, hw⟩ := hasWord_some m
      exact ⟨w, hw, _, hl, n, m, hn, .inr hk, hw⟩
  | @name n a m y hn hk h1 h2 h3 =>
    cases hn with
    | self => exact absurd (hi.symm.trans hk) (by simp)
    | kid hl hn =>
      obtain ⟨w, hw⟩ := hasWord_some m
      refine ⟨w, ?_, _, hl, n, m, hn, .inr hk, hw⟩
      unfold HasWord at hw ⊢
      have : (m ++ "." ++ y).toList = m.toList ++ '.' :: y.toList := by simp
      rw [this, splitOn_dot]
      exact List.mem_append.mpr (.inl hw)
  | attr _ _ _ _ hx _ ih =>
    obtain ⟨w, hw, h⟩ := ih
    exact ⟨w, fullText_words hx hw, h⟩

/-- A program gives a meaning to names in its statements. -/
theorem meaning_taken {i : Info} (hi : i.kind = .module) {ps : List Node} {T : String → Prop} (hT : ∀ w, Taken ps w → T w) {n : Node} {x : String}
    (hn : In n (.mk i ps)) (h : GivesMeaning n x) (hm : n.kind ≠ .module) : ¬ FreeOf T x := by
  cases hn with
  | self => exact absurd hi hm
  | kid hk hn =>
    intro hf
    obtain ⟨w, hw⟩ := hasWord_some x
    exact hf w hw (hT w ⟨_, hk, n, x, hn, h, hw⟩)

theorem nonempty_types {env : Env} {p : Node} : Keeps env p (fun _ _ _ ts => ∀ x ys, Dict.get? ts x = some ys → ys ≠ []) := by
  refine ⟨fun _ _ _ _ _ _ _ _ _ h => h, fun _ _ _ _ _ _ _ _ _ h => h, fun _ _ _ _ _ _ _ _ _ h => h, fun k x' y' _ _ _ ts _ _ h x ys => ?_⟩
  rw [Dict.get?_set]
  split
  · intro e
    cases e
    unfold addSet
    split
    · next hc => intro hn; rw [hn] at hc; cases hc
    · simp
  · exact h x ys

theorem inSlice_in {n e : Node} (h : InSlice n e) : In e n := by
  have se : ∀ {a : Node}, In a n → SelfOrElement a e → In e n := fun ha h => by
    rcases h with rfl | ⟨_, h⟩
    · exact ha
    · exact In.trans (.kid (fields_mem h) (.self _)) ha
  obtain ⟨_, sl, hs, ⟨_, v, hv, h⟩ | ⟨_, h⟩ | ⟨_, _, h⟩⟩ := h
  · exact se (In.trans (.kid (field_mem hv) (.self _)) (.kid (field_mem hs) (.self _))) h
  · exact In.trans (.kid (fields_mem h) (.self _)) (.kid (field_mem hs) (.self _))
  · exact se (.kid (field_mem hs) (.self _)) h

/-- After statements of a program nothing is known about names that these do not give a meaning to. -/
theorem beside_start {env : Env} {i : Info} (hi : i.kind = .module) {ps : List Node}
    (hal : ∀ k ∈ ps, ∀ n, In n k → ∀ a ∈ n.fields .names, ∃ x y, a.kind = .alias x y) {T : String → Prop} (hT : ∀ w, Taken ps w → T w) {E : Prop}
    (hE : E → ∀ w, Imported ps w → T w) {li : Nat} {o : List String} {c : S}
    (h : each Child.visit (visitKids env ps) { S.init with line := li, depth := 1, out := S.init.out ++ o } = .ok c) :
    Beside (FreeOf T) (EllipsisIn ps) E c { S.init with line := li, depth := 1, out := S.init.out ++ o } c := by
  have hu : Learnt env (.mk i ps) (.mk i ps) { S.init with line := li, depth := 1, out := S.init.out ++ o } := { learnt_init env (.mk i ps) with }
  obtain ⟨hl, _, hf⟩ := each_known (nonempty_types (env := env) (p := .mk i ps)) (n := .mk i ps) (l := ps) (fun k hk => hk) _ _ { hu with known := nofun } h
  have hm : ∀ {n : Node} {k : Kind}, n.kind = k → k ≠ .module → n.kind ≠ .module := fun e h => e ▸ h
  have hnone : ∀ d : Dict String String, (∀ x v, Dict.get? d x = some v → ¬ FreeOf T x) → Agree (FreeOf T) [] d := fun d hd =>
    ⟨fun x hx => by
      cases hg : Dict.get? d x with
      | none => rfl
      | some v => exact absurd hx (hd x v hg), nofun⟩
  have hk := each_keeps (Q := fun s => s.depth = 1 ∧ s.seenFor = 0 ∧ s.seenWhile = 0 ∧ s.tryFinally = []) (fun c hc s u hs hu => by
    obtain ⟨_, h2, _⟩ := of_mem_visitKids hc
    rw [h2] at hu
    have := visit_steps env c.node s u hu
    rw [this.depth, this.seenFor, this.seenWhile, this.tryFinally]
    exact hs) ⟨rfl, rfl, rfl, rfl⟩ h
  have ha : ∀ {n v : Node} {x : String}, AssignsTo n v x → n.kind ≠ .module := by
    rintro n v x ⟨h | h | h, _⟩ <;> exact hm h (by simp)
  exact {
    Props.kids_kept h with
    renames := hnone _ fun x v hx => by
      obtain ⟨n, hn, a, ha, k, hk, hr⟩ := hl.renames x v hx
      exact meaning_taken hi hT hn (.as ha hk) (by rcases hr with ⟨h, _⟩ | ⟨m, h, _⟩ <;> exact hm h (by simp))
    origins := hnone _ fun x v hx => by
      obtain ⟨n, hn, hk, hs, a, ha, hx⟩ := hl.origins x v hx
      rcases hx with hx | ⟨_, hx⟩
      · exact meaning_taken hi hT hn (.name hk ha hx hs) (hm hk (by simp))
      · cases hn with
        | self => exact absurd (hi.symm.trans hk) (by simp)
        | kid hl hn =>
          obtain ⟨z, y, hy⟩ := hal _ hl n hn a ha
          exact absurd hy (hx z y)
    results := hnone _ fun x v hx => by
      cases hl.values x v hx with
      | assign hn h _ _ => exact meaning_taken hi hT hn (.assign h) (ha h)
      | loop hn h1 h2 h3 _ _ _ _ => exact meaning_taken hi hT hn (.loop h1 h2 h3) (by rcases h1 with h | h <;> exact hm h (by simp))
    types := fun x hx => by
      show Dict.get? c.nameResType x = none
      cases hg : Dict.get? c.nameResType x with
      | none => rfl
      | some ys =>
        cases ys with
        | nil => exact absurd rfl (hl.known x [] hg)
        | cons z ys =>
          obtain ⟨n, hn, ⟨v, h, _⟩ | ⟨h, _⟩⟩ := hl.types x _ z hg (by simp)
          · exact absurd hx (meaning_taken hi hT hn (.assign h) (ha h))
          · exact absurd hx (meaning_taken hi hT hn (.define (.inr (.inl h))) (hm h (by simp)))
    typesKept := nofun
    defs := fun x hx => ⟨fun hd => by
      obtain ⟨n, hn, h⟩ := hl.defs x hd
      refine absurd hx (meaning_taken hi hT hn (.define h) fun e => ?_)
      unfold Defines DefinesFunction at h
      rw [e] at h
      simp at h, nofun⟩
    defsIn := fun _ h => .inr h
    defsOld := fun _ h => h
    depth := hk.1
    loops := hk.2.1
    whiles := hk.2.2.1
    finals := hk.2.2.2
    yields := (Nat.zero_add _).symm
    awaits := (Nat.zero_add _).symm
    calls := List.prefix_nil.mp hf
    callsKept := nofun
    slices := fun u hu => ⟨fun hs => by
      obtain ⟨n, hn, e, he, hk, rfl⟩ := hl.slices u hs
      have hen : In e (.mk i ps) := In.trans (inSlice_in he) hn
      cases hen with
      | self => exact absurd (hi.symm.trans hk) (by simp)
      | kid hl he => exact absurd ⟨_, hl, e, he, hk, rfl⟩ hu, nofun⟩
    modulesKept := nofun
    membersKept := nofun
    flagsIn := fun _ _ h => .inr h
    modulesIn := fun _ _ h => .inr h
    membersIn := fun _ _ h => .inr h
    kwargsIn := fun _ _ h => .inr h
    decosIn := fun _ _ h => .inr h
    strftimeIn := fun _ _ h => .inr h
    bytesDirsIn := fun _ _ h => .inr h
    typecodesIn := fun _ _ h => .inr h
    errsIn := fun _ _ h => .inr h
    encsIn := fun _ _ h => .inr h
    strange := fun e m hm hf => by
      obtain ⟨w, hw, h⟩ := module_imported hi hal (hl.modules m hm)
      exact hf w hw (hE e w h)
    plain := fun _ => nofun
    sources := fun _ => nofun }

/-- The visit of a program: that of its first statements, and of the others beside it. -/
theorem visit_beside {env : Env} (hp : env.cfg.printVisits = false) (ht : TargetsOk env) (ho : Props.SetOrder env) {i : Info} (hi : i.kind = .module) {ps qs : List Node}
    (hal : ∀ k ∈ ps, ∀ n, In n k → ∀ a ∈ n.fields .names, ∃ x y, a.kind = .alias x y) {T : String → Prop} (hT : ∀ w, Taken ps w → T w) {E : Prop}
    (hE : E → ∀ w, Imported ps w → T w) (hv : ∀ w ∈ valueWords, ¬ T w) (hx : E → ∀ x, x ∉ env.cfg.exclusions)
    (hf : ∀ k ∈ qs, Foreign (FreeOf T) (EllipsisIn ps) E k) {c : S} (h : visit env (.mk i ps) S.init = .ok c) :
    BesideOut (FreeOf T) (EllipsisIn ps) E c (visit env (.mk i qs) S.init) (visit env (.mk i (ps ++ qs)) S.init) := by
  have hv' : ∀ l, visit env (.mk i l) = gen env (.mk i l) (visitKids env l) := fun l => by
    rw [Props.visit_mk]
    unfold visitAlg
    have : (Node.mk i l).kind = .module := hi
    rw [this]
    rfl
  rw [hv'] at h ⊢
  rw [hv']
  unfold gen at h ⊢
  have he : ∀ l, genEnter env (.mk i l) = genEnter env (.mk i ps) := fun l => by
    unfold genEnter
    rw [hp]
    rfl
  rw [he (ps ++ qs), he qs, Props.visitKids_append]
  obtain ⟨b, h2, h4⟩ := seq_run h
  obtain ⟨a, h1, h3⟩ := seq_run h2
  cases h4
  have h1' := h1
  obtain ⟨li, o, rfl⟩ := genEnter_run h1
  have hst := beside_start hi hal hT hE h3
  have := (visitKids_abreast (freeOf_apart hv) ht hx (fun l x hx => (ho l).mem_iff.mp hx) qs hf).visits.run _ _ hst
  have run : ∀ {v w : V} {s t : S}, v s = .ok t → (v ;; w) s = w t := fun h => by unfold V.seq; rw [h]
  have fail : ∀ {v w : V} {s : S} {e : Err}, v s = .error e → (v ;; w) s = .error e := fun h => by unfold V.seq; rw [h]
  have e1 : ∀ v : V, (genEnter env (.mk i ps) ;; v) S.init = v { S.init with line := li, depth := 0 + 1, out := S.init.out ++ o } := fun v => run h1'
  have e2 : each Child.visit (visitKids env ps ++ visitKids env qs) { S.init with line := li, depth := 0 + 1, out := S.init.out ++ o } =
      each Child.visit (visitKids env qs) b := by
    rw [Props.each_append]
    exact run h3
  revert this
  cases hq : each Child.visit (visitKids env qs) { S.init with line := li, depth := 0 + 1, out := S.init.out ++ o } with
  | error e =>
    cases hr : each Child.visit (visitKids env qs) b with
    | ok u => exact False.elim
    | error e' =>
      intro _
      rw [fail ((e1 _).trans hq), fail ((e1 _).trans (e2.trans hr))]
      trivial
  | ok u =>
    cases hr : each Child.visit (visitKids env qs) b with
    | error e => exact False.elim
    | ok r =>
      intro hb
      rw [run ((e1 _).trans hq), run ((e1 _).trans (e2.trans hr))]
      exact { hb with depth := by show r.depth - 1 = u.depth - 1; rw [hb.depth] }

theorem visit_first {env : Env} (hp : env.cfg.printVisits = false) {i : Info} (hi : i.kind = .module) {ps qs : List Node} {t : S}
    (h : visit env (.mk i (ps ++ qs)) S.init = .ok t) : ∃ c, visit env (.mk i ps) S.init = .ok c :=
  let ⟨c, h, _⟩ := Props.visit_longer hp hi h
  ⟨c, h⟩

theorem tour_beside {env : Env} (hp : env.cfg.printVisits = false) (ht : TargetsOk env) (ho : Props.SetOrder env) {i : Info} (hi : i.kind = .module) {ps qs : List Node}
    (hs : Strangers ps qs) {t : S} (h : tour env (.mk i (ps ++ qs)) S.init = .ok t) : ∃ u, tour env (.mk i qs) S.init = .ok u ∧ Retains u t := by
  obtain ⟨b, o, hb, rfl⟩ := Props.tour_run h
  obtain ⟨c, hc⟩ := visit_first hp hi hb
  have hk := visit_beside hp ht ho hi hs.aliases (fun _ h => h) False.elim hs.values False.elim (fun k hk => strangers_foreign hs hk) hc
  rw [hb] at hk
  cases hu : visit env (.mk i qs) S.init with
  | error e => rw [hu] at hk; exact hk.elim
  | ok u =>
  rw [hu] at hk
  replace hk : Beside _ _ _ _ u b := hk
  obtain ⟨o', hr⟩ := Props.afterVisitAll_run env u
  have hd : ∀ x, FreeOf (Taken ps) x → (env.order b.userDefs).contains x = (env.order u.userDefs).contains x := fun x hx => by
    rw [Bool.eq_iff_iff, List.contains_iff_mem, List.contains_iff_mem, (ho _).mem_iff, (ho _).mem_iff]
    exact hk.defs x hx
  refine ⟨_, by unfold tour V.seq; rw [hu]; exact hr, ?_⟩
  refine { hk.toRetains with modules := fun m hm => ?_, members := fun m hm => ?_ }
  · obtain ⟨h1, h2⟩ := List.mem_filter.mp hm
    exact List.mem_filter.mpr ⟨hk.modules m h1, by rw [hd m (hk.modulesKept m h1)]; exact h2⟩
  · obtain ⟨h1, h2⟩ := List.mem_filter.mp hm
    exact List.mem_filter.mpr ⟨hk.members m h1, by rw [hd m (hk.membersKept m h1)]; exact h2⟩

/-- A visit finds no modules and members with words that are not in the program. -/
theorem visit_free {env : Env} (ht : TargetsOk env) (ho : Props.SetOrder env) {i : Info} (hi : i.kind = .module) {ps qs : List Node} (hs : Strangers qs ps)
    {c : S} (h : visit env (.mk i ps) S.init = .ok c) : (∀ m ∈ c.modules, FreeOf (Taken qs) m) ∧ ∀ m ∈ c.members, FreeOf (Taken qs) m := by
  have hf : Foreign (FreeOf (Taken qs)) (fun _ => False) False (.mk i ps) := fun m hm => by
    refine ⟨fun x hx w hw => ?_, fun _ => id, False.elim⟩
    cases hm with
    | self =>
      have : (Node.mk i ps).kind = .module := hi
      rw [this] at hx
      cases hx
    | kid hk hm => exact hs.names _ hk m hm x hx w hw
  have h0 : Beside (FreeOf (Taken qs)) (fun _ => False) False S.init S.init S.init := {
    Retains.refl S.init with
    flagsIn := False.elim
    modulesIn := False.elim
    membersIn := False.elim
    kwargsIn := False.elim
    decosIn := False.elim
    strftimeIn := False.elim
    bytesDirsIn := False.elim
    typecodesIn := False.elim
    errsIn := False.elim
    encsIn := False.elim
    renames := ⟨fun _ _ => rfl, nofun⟩
    origins := ⟨fun _ _ => rfl, nofun⟩
    results := ⟨fun _ _ => rfl, nofun⟩
    types := fun _ _ => rfl
    typesKept := nofun
    defs := fun _ _ => .rfl
    defsIn := fun _ h => .inl h
    defsOld := fun _ h => h
    depth := rfl
    loops := rfl
    whiles := rfl
    finals := rfl
    yields := rfl
    awaits := rfl
    calls := rfl
    callsKept := nofun
    slices := fun _ _ => .rfl
    modulesKept := nofun
    membersKept := nofun
    strange := False.elim
    plain := False.elim
    sources := False.elim }
  have := (visitNode_abreast (freeOf_apart hs.values) ht False.elim (fun l x hx => (ho l).mem_iff.mp hx) (.mk i ps) hf).1.run _ _ h0
  have hv : (visitNode env (.mk i ps)).1 S.init = .ok c := h
  rw [hv] at this
  exact ⟨Beside.modulesKept this, Beside.membersKept this⟩

/-- The tour of a program whose parts are unrelated ends iff those of its parts do, and finds what these find. -/
theorem tour_exact {env : Env} (hp : env.cfg.printVisits = false) (ht : TargetsOk env) (ho : Props.SetOrder env) (hx : env.cfg.exclusions = []) {i : Info}
    (hi : i.kind = .module) {ps qs : List Node} (hs : Unrelated ps qs) (hs' : Strangers qs ps) :
    (∀ t, tour env (.mk i (ps ++ qs)) S.init = .ok t → ∃ s u, tour env (.mk i ps) S.init = .ok s ∧ tour env (.mk i qs) S.init = .ok u) ∧
    ∀ s u, tour env (.mk i ps) S.init = .ok s → tour env (.mk i qs) S.init = .ok u →
      ∃ t, tour env (.mk i (ps ++ qs)) S.init = .ok t ∧ Retains s t ∧ Retains u t ∧ Gains True s u t := by
  have hb := fun c hc => visit_beside (c := c) hp ht ho hi hs.aliases (T := fun w => Taken ps w ∨ Imported ps w) (fun _ => .inl) (E := True) (fun _ _ => .inr)
    (fun w hw h => h.elim (hs.values w hw) (hs.others w hw)) (fun _ x h => by rw [hx] at h; cases h) (fun k hk => unrelated_foreign hs hk) hc
  have go : ∀ {n : Node} {u : S}, visit env n S.init = .ok u → ∃ o, tour env n S.init = .ok { u with
      modules := u.modules.filter (fun m => !(env.order u.userDefs).contains m),
      members := u.members.filter (fun m => !(env.order u.userDefs).contains m), out := u.out ++ o } := fun {n u} h => by
    obtain ⟨o, hr⟩ := Props.afterVisitAll_run env u
    exact ⟨o, by unfold tour V.seq; rw [h]; exact hr⟩
  refine ⟨fun t h => ?_, fun s u h1 h2 => ?_⟩
  · obtain ⟨t', o, hb', rfl⟩ := Props.tour_run h
    obtain ⟨c, hc⟩ := visit_first hp hi hb'
    have hk := hb c hc
    rw [hb'] at hk
    cases hu : visit env (.mk i qs) S.init with
    | error e => rw [hu] at hk; exact hk.elim
    | ok u =>
      obtain ⟨_, h1⟩ := go hc
      obtain ⟨_, h2⟩ := go hu
      exact ⟨_, _, h1, h2⟩
  · have hl := Props.C29_learnt _ _ _ h2
    obtain ⟨c, o, hc, rfl⟩ := Props.tour_run h1
    obtain ⟨u, o', hu, rfl⟩ := Props.tour_run h2
    have hk := hb c hc
    rw [hu] at hk
    cases ht' : visit env (.mk i (ps ++ qs)) S.init with
    | error e => rw [ht'] at hk; exact hk.elim
    | ok t =>
    rw [ht'] at hk
    replace hk : Beside _ _ _ _ u t := hk
    obtain ⟨o'', h3⟩ := go ht'
    have hkeep : Retains c t := by
      obtain ⟨c', hc', hk'⟩ := Props.visit_longer hp hi ht'
      rw [hc] at hc'
      cases hc'
      exact hk'
    have hfree := visit_free ht ho hi hs' hc
    have cont : ∀ (s : S) x, (!(env.order s.userDefs).contains x) = true ↔ x ∉ s.userDefs := fun s x => by
      rw [Bool.not_eq_true', ← Bool.not_eq_true, List.contains_iff_mem, (ho _).mem_iff]
    have new : ∀ x, FreeOf (Taken qs) x → x ∉ c.userDefs → x ∉ t.userDefs := fun x hf hn hx => by
      rcases hk.defsIn x hx with hx | hx
      · obtain ⟨n, hn, hd⟩ := hl.defs x hx
        refine meaning_taken hi (fun _ h => h) hn (.define hd) (fun e => ?_) hf
        unfold Defines DefinesFunction at hd
        rw [e] at hd
        simp at hd
      · exact hn hx
    refine ⟨_, h3, { hkeep with modules := fun m hm => ?_, members := fun m hm => ?_ }, { hk.toRetains with modules := fun m hm => ?_, members := fun m hm => ?_ },
      { hk.toGains with modulesIn := fun _ m hm => ?_, membersIn := fun _ m hm => ?_ }⟩
    · obtain ⟨h1, h2⟩ := List.mem_filter.mp hm
      exact List.mem_filter.mpr ⟨hkeep.modules m h1, (cont t m).mpr (new m (hfree.1 m h1) ((cont c m).mp h2))⟩
    · obtain ⟨h1, h2⟩ := List.mem_filter.mp hm
      exact List.mem_filter.mpr ⟨hkeep.members m h1, (cont t m).mpr (new m (hfree.2 m h1) ((cont c m).mp h2))⟩
    · obtain ⟨h1, h2⟩ := List.mem_filter.mp hm
      exact List.mem_filter.mpr ⟨hk.modules m h1, (cont t m).mpr fun h => (cont u m).mp h2 ((hk.defs m (hk.modulesKept m h1)).mp h)⟩
    · obtain ⟨h1, h2⟩ := List.mem_filter.mp hm
      exact List.mem_filter.mpr ⟨hk.members m h1, (cont t m).mpr fun h => (cont u m).mp h2 ((hk.defs m (hk.membersKept m h1)).mp h)⟩
    · obtain ⟨h1, h2⟩ := List.mem_filter.mp hm
      rcases hk.modulesIn trivial m h1 with h1 | h1
      · exact .inl (List.mem_filter.mpr ⟨h1, (cont u m).mpr fun h => (cont t m).mp h2 ((hk.defs m (hk.modulesKept m h1)).mpr h)⟩)
      · exact .inr (List.mem_filter.mpr ⟨h1, (cont c m).mpr fun h => (cont t m).mp h2 (hk.defsOld m h)⟩)
    · obtain ⟨h1, h2⟩ := List.mem_filter.mp hm
      rcases hk.membersIn trivial m h1 with h1 | h1
      · exact .inl (List.mem_filter.mpr ⟨h1, (cont u m).mpr fun h => (cont t m).mp h2 ((hk.defs m (hk.membersKept m h1)).mpr h)⟩)
      · exact .inr (List.mem_filter.mpr ⟨h1, (cont c m).mpr fun h => (cont t m).mp h2 (hk.defsOld m h)⟩)

end Vermin

namespace Vermin.Props
open Vermin Vermin.Py Vermin.Spec Vermin.V

/-- **C105.** If minimum versions are detected for a program, they are also detected for its last statements, provided that these use no name that
the statements before give a meaning to, and every interpreter that satisfies the former satisfies the latter. -/
theorem C105_beside (c : Config) (h : Host) (path : String) (toks : List Tok) (hp : Printable c path) (ho : ∀ l, (h.order l).Perm l)
    {i : Info} (hi : i.kind = .module) (ps qs : List Node) (hs : Strangers ps qs)
    (m : Req) (hm : detectSource c h path (.mk i (ps ++ qs)) toks = .ok m) :
    ∃ m0, detectSource c h path (.mk i qs) toks = .ok m0 ∧ ∀ v, Satisfies v m → Satisfies v m0 := by
  -- without printing visits
  let c0 : Config := { c with printVisits := false }
  have hp0 : Printable c0 path := hp
  have hr : Relaxation c c0 := printVisits_relaxation c c.printVisits false
  have hr' : Relaxation c0 c := printVisits_relaxation c false c.printVisits
  obtain ⟨m1, hm1, hs1⟩ := C85_relaxed c c0 h path (.mk i (ps ++ qs)) toks hr hp hp0 m hm
  obtain ⟨_, t1, t2, ht1, hv1⟩ := (detect_ok_iff c0 h path _ toks m1).mp hm1
  obtain ⟨u0, hu0, hk⟩ := tour_beside (env := Env.make c0 h path toks) rfl hp0.1 ho hi hs ht1
  obtain ⟨s', m0, hm0, hs0⟩ := minimum_kept hp0 hk hv1
  have hd0 := (detect_ok_iff c0 h path (.mk i qs) toks m0).mpr ⟨hp0.goodPath, u0, s', hu0, hm0⟩
  obtain ⟨m2, hm2, hs2⟩ := C85_relaxed c0 c h path (.mk i qs) toks hr' hp0 hp m0 hd0
  exact ⟨m2, hm2, fun v hs => hs2 v (hs0 v (hs1 v hs))⟩

theorem requires_gained {env : Env} {b s t : S} (h : Gains True b s t) {r : Req} (hr : Requires env t r) : Requires env s r ∨ Requires env b r := by
  cases hr with
  | feature hf he => exact (h.flagsIn trivial _ (List.contains_iff_mem.mp hf)).imp (fun hf => .feature (List.contains_iff_mem.mpr hf) he) (fun hf => .feature (List.contains_iff_mem.mpr hf) he)
  | strftime hd ht => exact (h.strftimeIn trivial _ hd).imp (.strftime · ht) (.strftime · ht)
  | bytesDir hd ht => exact (h.bytesDirsIn trivial _ hd).imp (.bytesDir · ht) (.bytesDir · ht)
  | typecode hd ht => exact (h.typecodesIn trivial _ hd).imp (.typecode · ht) (.typecode · ht)
  | errorHandler hd ht => exact (h.errsIn trivial _ hd).imp (.errorHandler · ht) (.errorHandler · ht)
  | encoding hd hk ht => exact (h.encsIn trivial _ hd).imp (.encoding · hk ht) (.encoding · hk ht)
  | module hd ht => exact (h.modulesIn trivial _ hd).imp (.module · ht) (.module · ht)
  | member hd ht => exact (h.membersIn trivial _ hd).imp (.member · ht) (.member · ht)
  | kwarg hd ht => exact (h.kwargsIn trivial _ hd).imp (.kwarg · ht) (.kwarg · ht)
  | decorator hd ht => exact (h.decosIn trivial _ hd).imp (.decorator · ht) (.decorator · ht)

/-- Printing visits or not makes no difference. -/
theorem detect_quiet (c : Config) (h : Host) (path : String) (toks : List Tok) (hp : Printable c path) (node : Node) :
    (∀ m, detectSource c h path node toks = .ok m → ∃ m', detectSource { c with printVisits := false } h path node toks = .ok m' ∧ ∀ v, Satisfies v m ↔ Satisfies v m') ∧
    ∀ m, detectSource { c with printVisits := false } h path node toks = .ok m → ∃ m', detectSource c h path node toks = .ok m' ∧ ∀ v, Satisfies v m ↔ Satisfies v m' := by
  have key : ∀ (c1 c2 : Config), Printable c1 path → Printable c2 path → Relaxation c1 c2 → Relaxation c2 c1 → ∀ m, detectSource c1 h path node toks = .ok m →
      ∃ m', detectSource c2 h path node toks = .ok m' ∧ ∀ v, Satisfies v m ↔ Satisfies v m' := fun c1 c2 p1 p2 r1 r2 m hm => by
    obtain ⟨m', hm', h1⟩ := C85_relaxed c1 c2 h path node toks r1 p1 p2 m hm
    obtain ⟨m'', hm'', h2⟩ := C85_relaxed c2 c1 h path node toks r2 p2 p1 m' hm'
    rw [hm] at hm''
    cases hm''
    exact ⟨m', hm', fun v => ⟨h1 v, h2 v⟩⟩
  have r1 := printVisits_relaxation c c.printVisits false
  have r2 := printVisits_relaxation c false c.printVisits
  have p0 : Printable { c with printVisits := false } path := hp
  exact ⟨key c _ hp p0 r1 r2, key _ c p0 hp r2 r1⟩

/-- **C106.** If the statements of a program fall into two parts, neither of which uses names that the other gives a meaning to or imports, then minimum
versions detected for it are exactly those detected for the parts: they are satisfied by those interpreters that satisfy both.  They are detected
if they are for both parts and some interpreter satisfies both. -/
theorem C106_parts (c : Config) (h : Host) (path : String) (toks : List Tok) (hp : Printable c path) (ho : ∀ l, (h.order l).Perm l) (hx : c.exclusions = [])
    {i : Info} (hi : i.kind = .module) (ps qs : List Node) (hs : Unrelated ps qs) (hs' : Strangers qs ps) :
    (∀ m, detectSource c h path (.mk i (ps ++ qs)) toks = .ok m →
      ∃ m1 m2, detectSource c h path (.mk i ps) toks = .ok m1 ∧ detectSource c h path (.mk i qs) toks = .ok m2 ∧
        ∀ v, Satisfies v m ↔ Satisfies v m1 ∧ Satisfies v m2) ∧
    ∀ m1 m2, detectSource c h path (.mk i ps) toks = .ok m1 → detectSource c h path (.mk i qs) toks = .ok m2 →
      (∃ v, Satisfies v m1 ∧ Satisfies v m2) → ∃ m, detectSource c h path (.mk i (ps ++ qs)) toks = .ok m := by
  let c0 : Config := { c with printVisits := false }
  have hp0 : Printable c0 path := hp
  have q1 := detect_quiet c h path toks hp (.mk i ps)
  have q2 := detect_quiet c h path toks hp (.mk i qs)
  have q := detect_quiet c h path toks hp (.mk i (ps ++ qs))
  have ht := tour_exact (env := Env.make c0 h path toks) rfl hp0.1 ho hx hi hs hs'
  have hboth : ∀ {s u t s' u' t' : S} {m1 m2 m : Req}, Retains s t → Retains u t → Gains True s u t →
      minimumVersions (Env.make c0 h path toks) s = .ok (s', m1) → minimumVersions (Env.make c0 h path toks) u = .ok (u', m2) →
      minimumVersions (Env.make c0 h path toks) t = .ok (t', m) → ∀ v, Satisfies v m ↔ Satisfies v m1 ∧ Satisfies v m2 := fun k1 k2 hg e1 e2 e v => by
    rw [C32_satisfies e1 v, C32_satisfies e2 v, C32_satisfies e v]
    exact ⟨fun ⟨a, b⟩ => ⟨⟨a, fun r hr => b r (requires_kept k1 hr)⟩, a, fun r hr => b r (requires_kept k2 hr)⟩,
      fun ⟨⟨a, b⟩, _, d⟩ => ⟨a, fun r hr => (requires_gained hg hr).elim (d r) (b r)⟩⟩
  refine ⟨fun m hm => ?_, fun m1 m2 hm1 hm2 ⟨v, hv1, hv2⟩ => ?_⟩
  · obtain ⟨m', hm', e⟩ := q.1 m hm
    obtain ⟨_, t, t', ht1, hv⟩ := (detect_ok_iff c0 h path _ toks m').mp hm'
    obtain ⟨s, u, h1, h2⟩ := ht.1 t ht1
    obtain ⟨t0, h3, k1, k2, hg⟩ := ht.2 s u h1 h2
    rw [ht1] at h3
    cases h3
    obtain ⟨s', m1, hm1, _⟩ := minimum_kept hp0 k1 hv
    obtain ⟨u', m2, hm2, _⟩ := minimum_kept hp0 k2 hv
    obtain ⟨m1', hd1, e1⟩ := q1.2 m1 ((detect_ok_iff c0 h path (.mk i ps) toks m1).mpr ⟨hp0.goodPath, s, s', h1, hm1⟩)
    obtain ⟨m2', hd2, e2⟩ := q2.2 m2 ((detect_ok_iff c0 h path (.mk i qs) toks m2).mpr ⟨hp0.goodPath, u, u', h2, hm2⟩)
    refine ⟨m1', m2', hd1, hd2, fun v => ?_⟩
    rw [e v, ← e1 v, ← e2 v]
    exact hboth k1 k2 hg hm1 hm2 hv v
  · obtain ⟨m1', hm1', e1⟩ := q1.1 m1 hm1
    obtain ⟨m2', hm2', e2⟩ := q2.1 m2 hm2
    obtain ⟨_, s, s', hs1, hvs⟩ := (detect_ok_iff c0 h path _ toks m1').mp hm1'
    obtain ⟨_, u, u', hu1, hvu⟩ := (detect_ok_iff c0 h path _ toks m2').mp hm2'
    obtain ⟨t, ht1, k1, k2, hg⟩ := ht.2 s u hs1 hu1
    obtain ⟨hmaj, a1⟩ := (C32_satisfies hvs v).mp ((e1 v).mp hv1)
    obtain ⟨_, a2⟩ := (C32_satisfies hvu v).mp ((e2 v).mp hv2)
    have hall : ∀ r, Requires (Env.make c0 h path toks) t r → Satisfies v r := fun r hr => (requires_gained hg hr).elim (a2 r) (a1 r)
    have henc : EncodingsOk t := fun k hk => (hg.encsIn trivial k hk).elim (encodings_ok (std_text c0) hvu k) (encodings_ok (std_text c0) hvs k)
    cases hv : minimumVersions (Env.make c0 h path toks) t with
    | error e =>
      obtain ⟨_, ⟨a, ha, ha2⟩, b, hb, hb3⟩ := (C32_raises_std (env := Env.make c0 h path toks) (s := t) rfl hp0.1 henc).1.mp ⟨e, hv⟩
      exfalso
      rcases hall a ha with ⟨h2, _⟩ | ⟨_, m, hm, _⟩
      · rcases hall b hb with ⟨_, m, hm, _⟩ | ⟨h3, _⟩
        · rw [hb3.1] at hm; cases hm
        · omega
      · rw [ha2.2] at hm; cases hm
    | ok x =>
      obtain ⟨t', m⟩ := x
      obtain ⟨m', hm', _⟩ := q.2 m ((detect_ok_iff c0 h path _ toks m).mpr ⟨hp0.goodPath, t, t', ht1, hv⟩)
      exact ⟨m', hm'⟩

/-- The identifiers in statements -/
def identifiersOf (ks : List Node) : List String := ks.flatMap fun k => (walk k).flatMap fun n => n.kind.identifiers

theorem binds_identifier {t : Node} {x : String} (h : Binds t x) : ∃ m, In m t ∧ x ∈ m.kind.identifiers := by
  induction h with
  | name hk => exact ⟨_, .self _, by rw [hk]; exact List.mem_singleton.mpr rfl⟩
  | part _ _ hk _ ih =>
    obtain ⟨m, hm, hx⟩ := ih
    exact ⟨m, .kid hk hm, hx⟩

/-- What a name is given a meaning with has the name. -/
theorem meaning_identifier {n : Node} {x : String} (h : GivesMeaning n x) : ∃ m, In m n ∧ x ∈ m.kind.identifiers := by
  have hb : ∀ {t : Node}, Binds t x → ∃ m, In m t ∧ x ∈ m.kind.identifiers := binds_identifier
  have up : ∀ {t : Node}, In t n → (∃ m, In m t ∧ x ∈ m.kind.identifiers) → ∃ m, In m n ∧ x ∈ m.kind.identifiers := fun ht ⟨m, hm, hx⟩ => ⟨m, In.trans hm ht, hx⟩
  have kid : ∀ {t : Node}, t ∈ n.kids → In t n := fun h => .kid h (.self _)
  have nam : ∀ {t : Node} {c : Ctx}, t.kind = .name x c → ∃ m, In m t ∧ x ∈ m.kind.identifiers := fun h => ⟨_, .self _, by rw [h]; exact List.mem_singleton.mpr rfl⟩
  have ali : ∀ {t : Node} {k : String}, t.kind = .alias k (some x) → ∃ m, In m t ∧ x ∈ m.kind.identifiers := fun h => ⟨_, .self _, by rw [h]; simp [Kind.identifiers]⟩
  cases h with
  | define h =>
    rcases h with (h | h) | h | ⟨_, a, ha, y, h⟩ | ⟨_, t, ht, h⟩ | ⟨_, t, ht, h⟩ | ⟨_, t, ht, h⟩ | ⟨_, w, hw, t, ht, h⟩ | ⟨_, w, hw, t, ht, h⟩ | h | ⟨_, a, ha, h, _⟩
    · exact ⟨n, .self n, by rw [h]; exact List.mem_singleton.mpr rfl⟩
    · exact ⟨n, .self n, by rw [h]; exact List.mem_singleton.mpr rfl⟩
    · exact ⟨n, .self n, by rw [h]; exact List.mem_singleton.mpr rfl⟩
    · exact up (kid (fields_mem ha)) (ali h)
    · exact up (kid (fields_mem ht)) (hb h)
    · exact up (kid (field_mem ht)) (nam h)
    · exact up (kid (field_mem ht)) (hb h)
    · exact up (In.trans (.kid (field_mem ht) (.self _)) (kid (fields_mem hw))) (hb h)
    · exact up (In.trans (.kid (field_mem ht) (.self _)) (kid (fields_mem hw))) (hb h)
    · exact ⟨n, .self n, by rw [h]; exact List.mem_singleton.mpr rfl⟩
    · exact up (kid ha) ⟨_, .self _, by rw [h]; exact List.mem_singleton.mpr rfl⟩
  | assign h =>
    obtain ⟨_, _, t, ht, _, c, h⟩ := h
    exact up (kid ht) (nam h)
  | loop _ h1 h2 => exact up (kid (field_mem h1)) (nam h2)
  | name _ h1 h2 _ =>
    obtain ⟨y, h2⟩ := h2
    exact up (kid (fields_mem h1)) ⟨_, .self _, by rw [h2]; exact List.mem_cons_self ..⟩
  | as h1 h2 => exact up (kid (fields_mem h1)) (ali h2)

/-- Statements are strangers if they have no identifiers in common, as far as words are concerned. -/
theorem strangers_of_identifiers {ps qs : List Node}
    (hd : ∀ x ∈ identifiersOf ps, ∀ w, HasWord x w → w ∉ valueWords ∧ ∀ y ∈ identifiersOf qs, ¬ HasWord y w)
    (ha : ∀ k ∈ ps, ∀ n, In n k → ∀ a ∈ n.fields .names, ∃ x y, a.kind = .alias x y)
    (ho : ∀ k ∈ qs, ∀ n, In n k → n.kind = .const .ellipsis → ∀ l ∈ ps, ∀ e, In e l → e.kind = .const .ellipsis → e.info.uid ≠ n.info.uid) :
    Strangers ps qs := by
  have mem : ∀ {ks : List Node} {k n : Node} {x : String}, k ∈ ks → In n k → x ∈ n.kind.identifiers → x ∈ identifiersOf ks := fun hk hn hx =>
    List.mem_flatMap.mpr ⟨_, hk, List.mem_flatMap.mpr ⟨_, walk_mem hn, hx⟩⟩
  have taken : ∀ {w}, Taken ps w → w ∉ valueWords ∧ ∀ y ∈ identifiersOf qs, ¬ HasWord y w := fun ⟨k, hk, n, x, hn, hx, hw⟩ => by
    obtain ⟨m, hm, hx⟩ := meaning_identifier hx
    exact hd x (mem hk (In.trans hm hn) hx) _ hw
  exact ⟨fun k hk n hn x hx w hw ht => (taken ht).2 x (mem hk hn hx) hw, fun w hw ht => (taken ht).1 hw, ha, ho⟩

/-- And also unrelated, if names are single. -/
theorem unrelated_of_identifiers {ps qs : List Node}
    (hd : ∀ x ∈ identifiersOf ps, ∀ w, HasWord x w → w ∉ valueWords ∧ ∀ y ∈ identifiersOf qs, ¬ HasWord y w)
    (ha : ∀ k ∈ ps, ∀ n, In n k → ∀ a ∈ n.fields .names, ∃ x y, a.kind = .alias x y)
    (ho : ∀ k ∈ qs, ∀ n, In n k → n.kind = .const .ellipsis → ∀ l ∈ ps, ∀ e, In e l → e.kind = .const .ellipsis → e.info.uid ≠ n.info.uid)
    (h1 : ∀ k ∈ qs, ∀ n, In n k → ∀ x ∈ n.kind.ownNames, '.' ∉ x.toList) : Unrelated ps qs := by
  have mem : ∀ {ks : List Node} {k n : Node} {x : String}, k ∈ ks → In n k → x ∈ n.kind.identifiers → x ∈ identifiersOf ks := fun hk hn hx =>
    List.mem_flatMap.mpr ⟨_, hk, List.mem_flatMap.mpr ⟨_, walk_mem hn, hx⟩⟩
  have taken : ∀ {w}, Imported ps w → w ∉ valueWords ∧ ∀ y ∈ identifiersOf qs, ¬ HasWord y w := fun ⟨k, hk, n, m, hn, hm, hw⟩ => by
    refine hd m ?_ _ hw
    rcases hm with ⟨_, a, ha, y, hm⟩ | hm
    · exact mem hk (In.trans (.kid (fields_mem ha) (.self _)) hn) (by rw [hm]; exact List.mem_cons_self ..)
    · exact mem hk hn (by rw [hm]; exact List.mem_singleton.mpr rfl)
  exact { strangers_of_identifiers hd ha ho with
    modules := fun k hk n hn x hx w hw ht => (taken ht).2 x (mem hk hn hx) hw
    others := fun w hw ht => (taken ht).1 hw
    single := h1 }

/-- `x = f""` -/
def assignFstring : Node := nd .body .assign 1 [nd .targets (.name "x" .store) 1 [], nd .value .joinedStr 1 []]

theorem example_apart : (∀ x ∈ identifiersOf [assignFstring], ∀ w, HasWord x w → w ∉ valueWords ∧ ∀ y ∈ identifiersOf [importArgparse], ¬ HasWord y w) ∧
    ∀ x ∈ identifiersOf [importArgparse], ∀ w, HasWord x w → w ∉ valueWords ∧ ∀ y ∈ identifiersOf [assignFstring], ¬ HasWord y w := by
  rw [show identifiersOf [assignFstring] = ["x"] by decide, show identifiersOf [importArgparse] = ["argparse"] by decide]
  refine ⟨fun x hx w hw => ?_, fun x hx w hw => ?_⟩
  · obtain rfl := List.mem_singleton.mp hx
    have : w = "x" := String.toList_inj.mp (List.mem_singleton.mp hw)
    subst this
    refine ⟨by decide, fun y hy h => ?_⟩
    obtain rfl := List.mem_singleton.mp hy
    exact absurd h (by unfold HasWord; decide)
  · obtain rfl := List.mem_singleton.mp hx
    have : w = "argparse" := String.toList_inj.mp (List.mem_singleton.mp hw)
    subst this
    refine ⟨by decide, fun y hy h => ?_⟩
    obtain rfl := List.mem_singleton.mp hy
    exact absurd h (by unfold HasWord; decide)

theorem example_aliases : ∀ k ∈ [assignFstring, importArgparse], ∀ n, In n k → ∀ a ∈ n.fields .names, ∃ x y, a.kind = .alias x y := fun k hk n hn a ha => by
  have : a ∈ [assignFstring, importArgparse].flatMap fun k => (walk k).flatMap fun n => n.fields .names :=
    List.mem_flatMap.mpr ⟨k, hk, List.mem_flatMap.mpr ⟨n, walk_mem hn, ha⟩⟩
  rcases List.mem_singleton.mp this
  exact ⟨_, _, rfl⟩

theorem example_objects : ∀ k ∈ [assignFstring, importArgparse], ∀ n, In n k → n.kind ≠ .const .ellipsis := fun k hk n hn he => by
  have : n ∈ [assignFstring, importArgparse].flatMap fun k => (walk k).filter fun n => decide (n.kind = .const .ellipsis) :=
    List.mem_flatMap.mpr ⟨k, hk, List.mem_filter.mpr ⟨walk_mem hn, decide_eq_true he⟩⟩
  cases this

/-- Example: an f-string is assigned before the import of a module. -/
theorem C105_witness : Strangers [assignFstring] [importArgparse] ∧
    requirement (Config.init 1) (prog ([assignFstring] ++ [importArgparse])) = some ⟨none, some ⟨3, 6⟩⟩ ∧
    requirement (Config.init 1) (prog [importArgparse]) = some ⟨some ⟨2, 7⟩, some ⟨3, 2⟩⟩ :=
  ⟨strangers_of_identifiers example_apart.1 (fun k hk => example_aliases k (by simp [List.mem_singleton.mp hk]))
    (fun k hk n hn he => absurd he (example_objects k (by simp [List.mem_singleton.mp hk]) n hn)), by decide +kernel, by decide +kernel⟩

/-- Why names are excepted: after `argparse = x` the module is taken as the program's own. -/
theorem C105_false_names : requirement (Config.init 1) (prog [importArgparse]) = some ⟨some ⟨2, 7⟩, some ⟨3, 2⟩⟩ ∧
    requirement (Config.init 1) (prog ([nd .body .assign 2 [nd .targets (.name "argparse" .store) 2 [], nm .value "x" 2]] ++ [importArgparse])) =
      some ⟨some ⟨0, 0⟩, some ⟨0, 0⟩⟩ := by decide +kernel

/-- Example: the f-string and the import again.  Together they require Python 3.6, the maximum. -/
theorem C106_witness : Unrelated [assignFstring] [importArgparse] ∧ Strangers [importArgparse] [assignFstring] ∧ (Config.init 1).exclusions = [] ∧
    requirement (Config.init 1) (prog [assignFstring]) = some ⟨none, some ⟨3, 6⟩⟩ ∧
    requirement (Config.init 1) (prog [importArgparse]) = some ⟨some ⟨2, 7⟩, some ⟨3, 2⟩⟩ ∧
    requirement (Config.init 1) (prog ([assignFstring] ++ [importArgparse])) = some ⟨none, some ⟨3, 6⟩⟩ := by
  refine ⟨unrelated_of_identifiers example_apart.1 (fun k hk => example_aliases k (by simp [List.mem_singleton.mp hk]))
    (fun k hk n hn he => absurd he (example_objects k (by simp [List.mem_singleton.mp hk]) n hn)) (fun k hk n hn x hx => ?_),
    strangers_of_identifiers example_apart.2 (fun k hk => example_aliases k (by simp [List.mem_singleton.mp hk]))
    (fun k hk n hn he => absurd he (example_objects k (by simp [List.mem_singleton.mp hk]) n hn)), rfl, by decide +kernel, by decide +kernel, by decide +kernel⟩
  have : x ∈ [importArgparse].flatMap fun k => (walk k).flatMap fun n => n.kind.ownNames :=
    List.mem_flatMap.mpr ⟨k, hk, List.mem_flatMap.mpr ⟨n, walk_mem hn, hx⟩⟩
  cases this

/-- Why parts must not use each other's names: after `import long as a`, `a.x` is the member `long.x`, that requires Python 2.5 in the example. -/
theorem C106_false_names :
    requirement (Config.init 1) (prog [nd .body .import 1 [nd .names (.alias "long" (some "a")) 1 []]]) = some ⟨some ⟨0, 0⟩, some ⟨0, 0⟩⟩ ∧
    requirement (Config.init 1) (prog [st 2 (nd .value (.attribute "x") 2 [nm .value "a" 2])]) = some ⟨some ⟨0, 0⟩, some ⟨0, 0⟩⟩ ∧
    requirement (Config.init 1) (prog ([nd .body .import 1 [nd .names (.alias "long" (some "a")) 1 []]] ++
      [st 2 (nd .value (.attribute "x") 2 [nm .value "a" 2])])) = some ⟨some ⟨2, 5⟩, none⟩ := by decide +kernel

end Vermin.Props
