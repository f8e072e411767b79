import Verif.Lemmas.Found
import Verif.Lemmas.Pruned
import Verif.Spec.Places
/-
What is found at a place, and what is certain there.
-/
namespace Vermin
open Py V Spec

/-- Whatever is new is due to `B`, and what is counted to parts of `n`. -/
structure News (n : Node) (B : Event → Prop) (s t : S) : Prop where
  flags : ∀ f ∈ t.flags, f ∈ s.flags ∨ B (.flag f)
  modules : ∀ m ∈ t.modules, m ∈ s.modules ∨ B (.module m)
  members : ∀ m ∈ t.members, m ∈ s.members ∨ B (.member m)
  kwargs : ∀ q ∈ t.kwargs, q ∈ s.kwargs ∨ B (.kwarg q.1 q.2)
  decos : ∀ u ∈ t.userFuncDecos, u ∈ s.userFuncDecos ∨ B (.deco u)
  yields : s.seenYield < t.seenYield → ∃ m, In m n ∧ m.kind = .yield
  awaits : s.seenAwait < t.seenAwait → ∃ m, In m n ∧ m.kind = .await

theorem News.refl (n : Node) (B : Event → Prop) (s : S) : News n B s s :=
  ⟨fun _ => .inl, fun _ => .inl, fun _ => .inl, fun _ => .inl, fun _ => .inl, fun h => absurd h (Nat.lt_irrefl _), fun h => absurd h (Nat.lt_irrefl _)⟩
theorem News.trans {n : Node} {B : Event → Prop} {s t u : S} (h : News n B s t) (k : News n B t u) : News n B s u where
  flags f hf := (k.flags f hf).elim (h.flags f) .inr
  modules f hf := (k.modules f hf).elim (h.modules f) .inr
  members f hf := (k.members f hf).elim (h.members f) .inr
  kwargs f hf := (k.kwargs f hf).elim (h.kwargs f) .inr
  decos f hf := (k.decos f hf).elim (h.decos f) .inr
  yields hl := if hx : s.seenYield < t.seenYield then h.yields hx else k.yields (by omega)
  awaits hl := if hx : s.seenAwait < t.seenAwait then h.awaits hx else k.awaits (by omega)
theorem News.mono {n : Node} {B B' : Event → Prop} (hb : ∀ ev, B ev → B' ev) {s t : S} (h : News n B s t) : News n B' s t where
  flags f hf := (h.flags f hf).imp id (hb _)
  modules f hf := (h.modules f hf).imp id (hb _)
  members f hf := (h.members f hf).imp id (hb _)
  kwargs f hf := (h.kwargs f hf).imp id (hb _)
  decos f hf := (h.decos f hf).imp id (hb _)
  yields := h.yields
  awaits := h.awaits
theorem News.up {n k : Node} (hk : k ∈ n.kids) {B : Event → Prop} {s t : S} (h : News k B s t) : News n B s t :=
  { h with
    yields := fun hl => let ⟨m, h1, h2⟩ := h.yields hl; ⟨m, .kid hk h1, h2⟩
    awaits := fun hl => let ⟨m, h1, h2⟩ := h.awaits hl; ⟨m, .kid hk h1, h2⟩ }

/-- No facts -/
abbrev Any : Facts := fun _ _ _ _ => True
theorem keeps_any (env : Env) (p : Node) : Keeps env p Any := ⟨fun _ _ _ _ _ _ _ _ _ _ => trivial, fun _ _ _ _ _ _ _ _ _ _ => trivial, fun _ _ _ _ _ _ _ _ _ _ => trivial, fun _ _ _ _ _ _ _ _ _ _ => trivial⟩

/-- What holds after an action at `n`. -/
structure Done (env : Env) (p n : Node) (c : Place) (B : Event → Prop) (s t : S) : Prop where
  known : Known env Any p n t
  fits : c.Fits t
  news : News n B s t
  stack : t.fnStack <+: s.fnStack

/-- The action leads from one place to another and only what is due to `B` is found. -/
def Placed (env : Env) (p n : Node) (B : Event → Prop) (c c' : Place) (v : V) : Prop :=
  ∀ s t, Known env Any p n s → c.Fits s → v s = .ok t → Done env p n c' B s t

/-- As much is certain at one place as at the other. -/
def Surer (c c' : Place) : Prop := ∀ s, c.Fits s → c'.Fits s

theorem Surer.refl (c : Place) : Surer c c := fun _ => id
theorem Surer.trans {a b c : Place} (h : Surer a b) (k : Surer b c) : Surer a c := fun s hs => k s (h s hs)
theorem surer_add (c : Place) (D : String → Prop) : Surer (c.add D) c := fun _ h => ⟨fun x hx => h.defs x (.inl hx), h.slices, h.depth⟩
theorem surer_of {c c' : Place} (hd : ∀ x, c'.defs x → c.defs x) (hs : ∀ u, c'.slices u → c.slices u) (hz : c'.depth = c.depth) : Surer c c' :=
  fun _ h => ⟨fun x hx => h.defs x (hd x hx), fun u hu => h.slices u (hs u hu), h.depth.trans hz.symm⟩
theorem surer_enter (c : Place) (n : Node) : Surer (c.enter n) (c.own n) := surer_of (fun _ h => h) (fun _ => .inl) rfl
theorem surer_own (c : Place) (n : Node) : Surer (c.own n) c := surer_add c _

namespace Placed
variable {env : Env} {p n : Node} {B : Event → Prop} {c c₁ c₂ c₃ : Place}

theorem skip : Placed env p n B c c V.skip := fun s t hl hc h => by
  injection h with h; subst h; exact ⟨hl, hc, .refl _ _ _, List.prefix_refl _⟩
theorem seq {a b : V} (ha : Placed env p n B c c₁ a) (hb : Placed env p n B c₁ c₂ b) : Placed env p n B c c₂ (a ;; b) := by
  intro s t hl hc h
  obtain ⟨u, h1, h2⟩ := seq_run h
  have d1 := ha s u hl hc h1
  have d2 := hb u t d1.known d1.fits h2
  exact ⟨d2.known, d2.fits, d1.news.trans d2.news, d2.stack.trans d1.stack⟩
theorem rd {f : S → V} (hf : ∀ s, c.Fits s → Known env Any p n s → Placed env p n B c c₁ (f s)) : Placed env p n B c c₁ (V.rd f) :=
  fun s t hl hc h => hf s hc hl s t hl hc h
theorem pre {v : V} (h : Placed env p n B c₁ c₂ v) (hc : Surer c c₁) : Placed env p n B c c₂ v := fun s t hl hs hv => h s t hl (hc s hs) hv
theorem post {v : V} (h : Placed env p n B c c₁ v) (hc : Surer c₁ c₂) : Placed env p n B c c₂ v := fun s t hl hs hv =>
  let d := h s t hl hs hv
  ⟨d.known, hc t d.fits, d.news, d.stack⟩
theorem when {b : Bool} {v : V} (h : b = true → Placed env p n B c c v) : Placed env p n B c c (V.when b v) := by
  cases b with
  | true => exact h rfl
  | false => exact .skip
theorem optSkip {α : Type} {x : Option α} {k : α → V} (h : ∀ v, x = some v → Placed env p n B c c (k v)) : Placed env p n B c c (V.opt x V.skip k) := by
  cases x with
  | some v => exact h v rfl
  | none => exact .skip
theorem of_traced {v : V} (ht : Traced env Any p n v) (hv : ∀ s t, Known env Any p n s → c.Fits s → v s = .ok t → c₁.Fits t ∧ News n B s t) :
    Placed env p n B c c₁ v := fun s t hl hc h =>
  let a := ht s t hl h
  let b := hv s t hl hc h
  ⟨a.1, b.1, b.2, a.2.2⟩
theorem mono {B' : Event → Prop} {v : V} (h : Placed env p n B c c₁ v) (hb : ∀ ev, B ev → B' ev) : Placed env p n B' c c₁ v := fun s t hl hs hv =>
  let d := h s t hl hs hv
  ⟨d.known, d.fits, d.news.mono hb, d.stack⟩
theorem up {k : Node} (hk : k ∈ n.kids) {v : V} (h : Placed env p k B c c₁ v) : Placed env p n B c c₁ v := by
  intro s t hl hs hv
  have d := h s t (learnt_down hk hl) hs hv
  exact ⟨{ d.known with here := hl.here, calls := fun f hf => hl.calls f (d.stack.subset hf) }, d.fits, d.news.up hk, d.stack⟩
/-- Changes to what matters not -/
theorem other {f : S → S} (ht : Traced env Any p n (upd f)) (h : ∀ s, ((f s).userDefs, (f s).ellipsisInSlices, (f s).depth) = (s.userDefs, s.ellipsisInSlices, s.depth))
    (hn : ∀ s, News n B s (f s)) : Placed env p n B c c (upd f) :=
  of_traced ht fun s t _ hc hv => by
    rw [upd_run hv]
    have h := h s
    simp only [Prod.mk.injEq] at h
    exact ⟨⟨fun x hx => h.1 ▸ hc.defs x hx, fun x hx => h.2.1 ▸ hc.slices x hx, h.2.2 ▸ hc.depth⟩, hn s⟩
theorem other' {f : S → S} (hl : ∀ s, Known env Any p n s → Known env Any p n (f s)) (ht : ∀ s, Traces env p s → Traces env p (f s))
    (hs : ∀ s, (f s).fnStack = s.fnStack)
    (h : ∀ s, ((f s).userDefs, (f s).ellipsisInSlices, (f s).depth) = (s.userDefs, s.ellipsisInSlices, s.depth))
    (hn : ∀ s, News n B s (f s)) : Placed env p n B c c (upd f) := other (traced_other hl ht hs) h hn
theorem print (l msg ent line vs pl) : Placed env p n B c c (verbosePrint env l msg ent line vs pl) :=
  of_traced (.print _ _ _ _ _ _) fun s t _ hc hv => by
    obtain ⟨o, rfl⟩ := verbosePrint_run hv
    exact ⟨⟨hc.defs, hc.slices, hc.depth⟩, { News.refl n B s with }⟩

theorem snoc {α : Type} {C : α → Prop} {l : List α} {x : α} (hx : C x) : ∀ y ∈ l ++ [x], y ∈ l ∨ C y := fun y hy => by
  rcases List.mem_append.mp hy with hy | hy
  · exact .inl hy
  · rw [List.mem_singleton.mp hy]; exact .inr hx

theorem inScope {v : V} (h : Placed env p n B c c₁ v) (hc : Surer c₁ ⟨fun _ => False, c.slices, c.depth⟩) : Placed env p n B c c (inScope v) := by
  intro s t hl hs hv
  obtain ⟨u, h1, h2⟩ := seq_run (show (v ;; restoreDefs s.userDefs) s = .ok t from hv)
  have d := h s u hl hs h1
  have hu := hc u d.fits
  rw [upd_run h2]
  exact ⟨{ d.known with defs := hl.defs }, ⟨hs.defs, hu.slices, hu.depth⟩, { d.news with }, d.stack⟩

end Placed

section
variable {env : Env} {p n : Node} {B : Event → Prop} {c : Place}

/-- Events at a place -/
abbrev AtPlace (env : Env) (p n : Node) (c : Place) (ev : Event) : Prop := EmitsIn env (fun s => c.Fits s ∧ Learnt env p n s) n ev

theorem atPlace_at {ev : Event} (h : AtPlace env p n c ev) : At env p n ev := emitsIn_mono (fun _ h => h.2) h

theorem Placed.flag {f : Flag} (hb : B (.flag f)) (hf : At env p n (.flag f)) : Placed env p n B c c (setFlag f) :=
  .of_traced (.flag f fun _ => hf) fun s t _ hc hv => by
    rw [upd_run hv]
    unfold S.set
    split
    · exact ⟨hc, .refl _ _ _⟩
    · exact ⟨⟨hc.defs, hc.slices, hc.depth⟩, { News.refl n B s with flags := snoc hb }⟩
theorem Placed.found {f : Flag} (hb : B (.flag f)) (hf : At env p n (.flag f)) (msg vs line pl) : Placed env p n B c c (found env f msg vs line pl) :=
  (Placed.flag hb hf).seq (.print _ _ _ _ _ _)

theorem Placed.yieldScope {c₁ : Place} {a : V} (ha : Placed env p n B c c₁ a) :
    Placed env p n B c c₁ (V.rd fun s => a ;; upd fun s' => { s' with seenYield := s.seenYield }) := by
  intro s t hl hc h
  obtain ⟨u, h1, h2⟩ := seq_run h
  have d := ha s u hl hc h1
  rw [upd_run h2]
  exact ⟨{ d.known with }, ⟨d.fits.defs, d.fits.slices, d.fits.depth⟩, { d.news with yields := fun hl => absurd hl (Nat.lt_irrefl _) }, d.stack⟩

theorem Placed.asyncScope {c₁ : Place} {a : V} {name : String} (hn : n.kind = .asyncFunctionDef name) (hf : B (.flag .coroutines))
    (hg : AtPlace env p n c₁ (.flag .asyncGenerator) → B (.flag .asyncGenerator)) (hf' : At env p n (.flag .coroutines)) (ha : Placed env p n B c c₁ a) :
    Placed env p n B c c₁ (V.rd fun s => a ;; Vermin.found env .coroutines "coroutines (async)" (from3 5) (.at n.line) (some true) ;;
        (V.rd fun s' => V.when (decide (s.seenYield < s'.seenYield) && decide (s.seenAwait < s'.seenAwait))
          (Vermin.found env .asyncGenerator "async generators (await and yield in same func)" (from3 6) (.at n.line) (some true))) ;;
        upd fun s' => { s' with seenAwait := s.seenAwait, seenYield := s.seenYield }) := by
  intro s t hl hc h
  obtain ⟨u, h1, h2⟩ := seq_run h
  obtain ⟨v, h1, h3⟩ := seq_run h1
  have d := ha.seq (.found hf hf' _ _ _ _) s v hl hc h1
  have d2 : Done env p n c₁ B v u := by
    replace h3 : (V.when (decide (s.seenYield < v.seenYield) && decide (s.seenAwait < v.seenAwait))
      (Vermin.found env .asyncGenerator "async generators (await and yield in same func)" (from3 6) (.at n.line) (some true))) v = .ok u := h3
    by_cases hx : s.seenYield < v.seenYield ∧ s.seenAwait < v.seenAwait
    · have hf : AtPlace env p n c₁ (.flag .asyncGenerator) := show Construct env .asyncGenerator n from ⟨⟨name, hn⟩, d.news.yields hx.1, d.news.awaits hx.2⟩
      refine Placed.found (hg hf) (atPlace_at hf) "async generators (await and yield in same func)" (from3 6) (.at n.line) (some true) v u d.known d.fits ?_
      simpa [hx.1, hx.2, V.when] using h3
    · refine Placed.skip v u d.known d.fits ?_
      have : (decide (s.seenYield < v.seenYield) && decide (s.seenAwait < v.seenAwait)) = false := by simpa using hx
      simpa [this, V.when] using h3
  have hn := d.news.trans d2.news
  rw [upd_run h2]
  exact ⟨{ d2.known with }, ⟨d2.fits.defs, d2.fits.slices, d2.fits.depth⟩,
    { hn with yields := fun hl => absurd hl (Nat.lt_irrefl _), awaits := fun hl => absurd hl (Nat.lt_irrefl _) }, d2.stack.trans d.stack⟩

theorem acting_placed (hB : ∀ ev, AtPlace env p n c ev → (∀ x, Event.subject ev = some x → ¬ c.defs x) → B ev) :
    Acting env env.display n (fun s => c.Fits s ∧ Known env Any p n s) (fun v _ => Placed env p n B c c v) (AtPlace env p n c) := by
  have ct := closed_traced env Any p n (keeps_any env p)
  have hflag : ∀ {f : Flag}, AtPlace env p n c (.flag f) → Placed env p n B c c (setFlag f) := fun hf =>
    .flag (hB _ hf (by rintro x ⟨⟩)) (atPlace_at hf)
  have hnot : ∀ {s : S} {m : String}, c.Fits s → ¬ s.userDefs.contains m = true → ¬ c.defs m := fun hs hm hd => hm (List.contains_iff_mem.mpr (hs.defs _ hd))
  have hmod : ∀ {m : String} (l : Nat) (col : Option Nat), AtPlace env p n c (.module m) → Near n l → Placed env p n B c c (addModule env m (some l) col) := by
    intro m l col hf _
    refine .of_traced (ct.module _ _ (atPlace_at hf)) fun s t _ hc hv => ?_
    unfold addModule V.rd at hv
    dsimp only at hv
    split at hv
    · obtain ⟨o, rfl⟩ := verbosePrint_run hv
      exact ⟨⟨hc.defs, hc.slices, hc.depth⟩, { News.refl n B s with }⟩
    · rename_i hu
      split at hv
      · obtain ⟨o, rfl⟩ := verbosePrint_run hv
        exact ⟨⟨hc.defs, hc.slices, hc.depth⟩, { News.refl n B s with }⟩
      · unfold V.when at hv
        split at hv
        · rw [upd_run hv]
          obtain ⟨d, hd⟩ := addLineCol_with { s with modules := s.modules ++ [m] } (.name m) (some l) col
          rw [hd]
          refine ⟨⟨hc.defs, hc.slices, hc.depth⟩, { News.refl n B s with modules := Placed.snoc (hB _ hf ?_) }⟩
          intro x hx; injection hx with hx; subst hx; exact hnot hc hu
        · injection hv with hv; subst hv; exact ⟨hc, .refl _ _ _⟩
  have hmem : ∀ {m : String} (l : Nat) (col : Option Nat), AtPlace env p n c (.member m) → Near n l → Placed env p n B c c (addMember env m (some l) col) := by
    intro m l col hf _
    refine .of_traced (ct.member _ _ (atPlace_at hf)) fun s t _ hc hv => ?_
    unfold addMember V.rd at hv
    dsimp only at hv
    split at hv
    · obtain ⟨o, rfl⟩ := verbosePrint_run hv
      exact ⟨⟨hc.defs, hc.slices, hc.depth⟩, { News.refl n B s with }⟩
    · rename_i hu
      split at hv
      · obtain ⟨o, rfl⟩ := verbosePrint_run hv
        exact ⟨⟨hc.defs, hc.slices, hc.depth⟩, { News.refl n B s with }⟩
      · unfold V.when at hv
        split at hv
        · rw [upd_run hv]
          obtain ⟨d, hd⟩ := addLineCol_with { s with members := s.members ++ [m] } (.name m) (some l) col
          rw [hd]
          refine ⟨⟨hc.defs, hc.slices, hc.depth⟩, { News.refl n B s with members := Placed.snoc (hB _ hf ?_) }⟩
          intro x hx; injection hx with hx; subst hx; exact hnot hc hu
        · injection hv with hv; subst hv; exact ⟨hc, .refl _ _ _⟩
  have henc : ∀ {x : Const} (l : Nat), AtPlace env p n c (.encoding x) → Near n l → Placed env p n B c c (addEncoding env x l) := by
    intro x l hf _
    refine .of_traced (ct.encoding _ (atPlace_at hf)) fun s t _ hc hv => ?_
    unfold addEncoding at hv
    split at hv
    · obtain ⟨o, rfl⟩ := verbosePrint_run hv
      exact ⟨⟨hc.defs, hc.slices, hc.depth⟩, { News.refl n B s with }⟩
    · rw [upd_run hv]
      exact ⟨⟨hc.defs, hc.slices, hc.depth⟩, { News.refl n B s with }⟩
  exact {
    skip := .skip
    moduleAt := hmod
    memberAt := hmem
    encodingAt := henc
    attrMods := attrMods_of (d := env.display) (Q := fun v _ => Placed env p n B c c v) .skip (fun ha hb => ha.seq hb)
      (fun hf => .rd fun s hc hl => hf s s.findings rfl ⟨hc, hl⟩) hmod hmem
    kwExcl := fun _ _ => rfl
    feature := feature_of (d := env.display) (Q := fun v _ => Placed env p n B c c v) (fun _ => rfl) .skip (fun _ s t _ _ h => by cases h)
      (fun _ _ _ _ _ hf _ _ => (hflag hf).seq (.print _ _ _ _ _ _))
    dirs := dirs_of (d := env.display) (Q := fun v _ => Placed env p n B c c v) rfl .skip (fun hf => .rd fun s hc hl => hf s s.findings ⟨hc, hl⟩)
      (fun _ _ _ _ _ hf _ _ => (hflag hf).seq (.print _ _ _ _ _ _))
    longType := longType_of (d := env.display) (Q := fun v _ => Placed env p n B c c v) (fun _ => rfl) (fun hf => .rd fun s hc hl => hf s s.findings ⟨hc, hl⟩)
      (fun _ _ _ _ _ _ => .print _ _ _ _ _ _) (fun hf => (hflag hf).seq (.print _ _ _ _ _ _))
    encodingIdx := encodingIdx_of (Q := fun v _ => Placed env p n B c c v) (d := env.display) (fun _ => rfl) .skip (fun ha hb => ha.seq hb) henc
    seq := fun ha hb => ha.seq hb
    rd := fun {f f'} hf => .rd fun s hc hl => hf s s.findings ⟨hc, hl⟩
    raise := fun _ s t _ _ h => by cases h
    note := fun _ _ _ _ _ _ => .print _ _ _ _ _ _
    mark := fun hf _ => hflag hf
    says := fun _ _ _ _ _ hf _ _ => (hflag hf).seq (.print _ _ _ _ _ _)
    saysFormat := fun hf => .seq (.print _ _ _ _ _ _) (hflag hf)
    saysAnnotations := fun h1 h2 ha => .seq (.seq ha (hflag h1)) ((hflag h2).seq (.print _ _ _ _ _ _))
    kwarg := by
      intro f k l hf
      refine .of_traced (ct.kwarg _ (atPlace_at hf)) fun s t _ hc hv => ?_
      unfold addKwargs V.rd at hv
      dsimp only at hv
      split at hv
      · obtain ⟨o, rfl⟩ := verbosePrint_run hv
        exact ⟨⟨hc.defs, hc.slices, hc.depth⟩, { News.refl n B s with }⟩
      · rename_i hu
        split at hv
        · obtain ⟨o, rfl⟩ := verbosePrint_run hv
          exact ⟨⟨hc.defs, hc.slices, hc.depth⟩, { News.refl n B s with }⟩
        · unfold V.when at hv
          split at hv
          · rw [upd_run hv]
            obtain ⟨d, hd⟩ := addLineCol_with { s with kwargs := s.kwargs ++ [(f, k)] } (.kw f k) (some l) none
            rw [hd]
            refine ⟨⟨hc.defs, hc.slices, hc.depth⟩, { News.refl n B s with kwargs := Placed.snoc (C := fun q : String × Option String => B (.kwarg q.1 q.2)) (hB _ hf ?_) }⟩
            intro x hx; injection hx with hx; subst hx; exact hnot hc hu
          · injection hv with hv; subst hv; exact ⟨hc, .refl _ _ _⟩
    decoAt := by
      intro u l hf _
      refine .of_traced (ct.deco _ (atPlace_at hf)) fun s t _ hc hv => ?_
      unfold addUserFuncDeco V.rd at hv
      dsimp only at hv
      split at hv
      · obtain ⟨o, rfl⟩ := verbosePrint_run hv
        exact ⟨⟨hc.defs, hc.slices, hc.depth⟩, { News.refl n B s with }⟩
      · rename_i hu
        split at hv
        · obtain ⟨o, rfl⟩ := verbosePrint_run hv
          exact ⟨⟨hc.defs, hc.slices, hc.depth⟩, { News.refl n B s with }⟩
        · unfold V.when at hv
          split at hv
          · rw [upd_run hv]
            obtain ⟨d, hd⟩ := addLineCol_with { s with userFuncDecos := s.userFuncDecos ++ [u] } (.name u) (some l) none
            rw [hd]
            refine ⟨⟨hc.defs, hc.slices, hc.depth⟩, { News.refl n B s with decos := Placed.snoc (hB _ hf ?_) }⟩
            intro x hx; injection hx with hx; subst hx; exact hnot hc hu
          · injection hv with hv; subst hv; exact ⟨hc, .refl _ _ _⟩
    strftimeAt := fun l hf _ => .other (ct.strftime l (atPlace_at hf)) (fun _ => rfl) fun s => { News.refl n B s with }
    bytesDirAt := fun l hf _ => .other (ct.bytesDir l (atPlace_at hf)) (fun _ => rfl) fun s => { News.refl n B s with }
    typecodeAt := by
      intro x l col hf _
      refine .of_traced (ct.typecode _ _ (atPlace_at hf)) fun s t _ hc hv => ?_
      unfold addTypecode V.rd V.when at hv
      dsimp only at hv
      split at hv
      · rw [upd_run hv]
        exact ⟨⟨hc.defs, hc.slices, hc.depth⟩, { News.refl n B s with }⟩
      · injection hv with hv; subst hv; exact ⟨hc, .refl _ _ _⟩
    errorHandlerAt := by
      intro x l hf _
      refine .of_traced (ct.errorHandler _ (atPlace_at hf)) fun s t _ hc hv => ?_
      unfold addErrorHandler at hv
      split at hv
      · obtain ⟨o, rfl⟩ := verbosePrint_run hv
        exact ⟨⟨hc.defs, hc.slices, hc.depth⟩, { News.refl n B s with }⟩
      · rw [upd_run hv]
        exact ⟨⟨hc.defs, hc.slices, hc.depth⟩, { News.refl n B s with }⟩
    userDef := fun hf => .of_traced (ct.userDef (atPlace_at hf)) fun s t _ hc hv => by
      rw [upd_run hv]
      exact ⟨⟨fun x hx => mem_addSet_left (hc.defs x hx), hc.slices, hc.depth⟩, { News.refl n B s with }⟩
    nameRes := fun hf => .other (ct.nameRes (atPlace_at hf)) (fun _ => rfl) fun s => { News.refl n B s with }
    nameResType := fun hf => .other (ct.nameResType (atPlace_at hf)) (fun _ => rfl) fun s => { News.refl n B s with }
    moduleAs := fun hf => .other (ct.moduleAs (atPlace_at hf)) (fun _ => rfl) fun s => { News.refl n B s with }
    importMem := fun hf => .other (ct.importMem (atPlace_at hf)) (fun _ => rfl) fun s => { News.refl n B s with }
    callScope := by
      intro x a a' hf ha s t hl hc h
      obtain ⟨v, h1, h2⟩ := seq_run h
      obtain ⟨u, h0, h1⟩ := seq_run h1
      have h0 := upd_run h0
      subst h0
      have d := ha _ v (learnt_push hl (atPlace_at hf)) ⟨hc.defs, hc.slices, hc.depth⟩ h1
      rw [upd_run h2]
      refine ⟨{ d.known with calls := fun f hf => d.known.calls f (List.dropLast_subset _ hf) }, ⟨d.fits.defs, d.fits.slices, d.fits.depth⟩,
        { d.news with }, ?_⟩
      show v.fnStack.dropLast <+: s.fnStack
      obtain ⟨r, hr⟩ := d.stack
      replace hr : v.fnStack ++ r = s.fnStack ++ [x] := hr
      cases hr' : r.reverse with
      | nil =>
        rw [List.reverse_eq_nil_iff.mp hr', List.append_nil] at hr
        rw [hr]; simp
      | cons y ys =>
        have : r = ys.reverse ++ [y] := by rw [← List.reverse_reverse r, hr']; simp
        rw [this, ← List.append_assoc] at hr
        have h3 := (List.append_inj' hr rfl).1
        rw [← h3]
        exact (List.dropLast_prefix _).trans (List.prefix_append _ _)
    pop := fun hu => .other (ct.pop hu) (fun _ => rfl) fun s => { News.refl n B s with }
    yield := fun hf => .other (ct.yield (atPlace_at hf)) (fun _ => rfl) fun s => { News.refl n B s with yields := fun _ => ⟨n, .self n, hf⟩ }
    await := fun hf => .other (ct.await (atPlace_at hf)) (fun _ => rfl) fun s => { News.refl n B s with awaits := fun _ => ⟨n, .self n, hf⟩ }
    ellipsis := fun hf => .of_traced (ct.ellipsis (atPlace_at hf)) fun s t _ hc hv => by
      rw [upd_run hv]
      exact ⟨⟨hc.defs, fun u hu => List.mem_append_left _ (hc.slices u hu), hc.depth⟩, { News.refl n B s with }⟩
    inScope := fun ha => ha.inScope (surer_of nofun (fun _ h => h) rfl)
    yieldScope := fun ha => .yieldScope ha
    asyncScope := fun {a a' name} hn hf ha => .asyncScope hn (hB _ hf (by rintro x ⟨⟩)) (fun hg => hB _ hg (by rintro x ⟨⟩)) (atPlace_at hf) ha
    compScope := fun {a a' b} hn ha => by
      intro s t hl hc h
      obtain ⟨u, h1, h2⟩ := seq_run h
      obtain ⟨v, h1, h3⟩ := seq_run h1
      have d := ha s v hl hc h1
      have d2 : Done env p n c B v u := by
        by_cases hx : s.seenAwait < v.seenAwait
        · replace h3 : (found env .awaitInComprehension "await in comprehensions" (from3 7)) v = .ok u := by
            have : (when (decide (s.seenAwait < v.seenAwait)) (found env .awaitInComprehension "await in comprehensions" (from3 7))) v = .ok u := h3
            simpa [hx, V.when] using this
          have hf : AtPlace env p n c (.flag .awaitInComprehension) := show Construct env .awaitInComprehension n from ⟨⟨b, hn⟩, d.news.awaits hx⟩
          exact (hflag hf).seq (.print _ _ _ _ _ _) v u d.known d.fits h3
        · replace h3 : V.skip v = .ok u := by
            have : (when (decide (s.seenAwait < v.seenAwait)) (found env .awaitInComprehension "await in comprehensions" (from3 7))) v = .ok u := h3
            simpa [hx, V.when] using this
          exact Placed.skip v u d.known d.fits h3
      have hn := d.news.trans d2.news
      rw [upd_run h2]
      exact ⟨{ d2.known with }, ⟨d2.fits.defs, d2.fits.slices, d2.fits.depth⟩, { hn with awaits := fun hl => absurd hl (Nat.lt_irrefl _) }, d2.stack.trans d.stack⟩
    forScope := fun {a b d _ _ _} _ ha hb hd => .seq (.other' (fun _ h => { h with }) (fun _ h => { h with }) (fun _ => rfl) (fun _ => rfl) fun s => { News.refl n B s with })
      (.inScope (.seq (.seq (.seq ha hb) hd) (.other' (fun _ h => { h with }) (fun _ h => { h with }) (fun _ => rfl) (fun _ => rfl) fun s => { News.refl n B s with }))
        (surer_of nofun (fun _ h => h) rfl))
    whileScope := fun _ ha => .seq (.seq (.other' (fun _ h => { h with }) (fun _ h => { h with }) (fun _ => rfl) (fun _ => rfl) fun s => { News.refl n B s with }) ha)
      (.other' (fun _ h => { h with }) (fun _ h => { h with }) (fun _ => rfl) (fun _ => rfl) fun s => { News.refl n B s with })
    tryScope := fun _ ha hb => .seq (.seq (.seq (.other' (fun _ h => { h with }) (fun _ h => { h with }) (fun _ => rfl) (fun _ => rfl) fun s => { News.refl n B s with }) ha)
      (.other' (fun _ h => { h with }) (fun _ h => { h with }) (fun _ => rfl) (fun _ => rfl) fun s => { News.refl n B s with })) hb }

/-! ### Definitions -/

theorem surer_add_of {D D' : String → Prop} (h : ∀ x, D' x → D x) : Surer (c.add D) (c.add D') := surer_of (fun x hx => hx.imp id (h x)) (fun _ h => h) rfl
theorem surer_after {l l' : Node → Prop} (h : ∀ i, l' i → l i) : Surer (c.after env l) (c.after env l') := surer_add_of fun _ ⟨i, hi, hx⟩ => ⟨i, h i hi, hx⟩
theorem surer_after_self (l : Node → Prop) : Surer (c.after env l) c := surer_add c _
theorem after_congr {l l' : Node → Prop} (h : ∀ i, l i ↔ l' i) : c.after env l = c.after env l' := by
  rw [show l = l' from funext fun i => propext (h i)]

theorem Placed.define {x : String} (hx : At env p n (.define x)) : Placed env p n B c (c.add (· = x)) (addUserDef x) :=
  .of_traced ((closed_traced env Any p n (keeps_any env p)).userDef hx) fun s t _ hc hv => by
    rw [upd_run hv]
    refine ⟨⟨fun y hy => ?_, hc.slices, hc.depth⟩, { News.refl n B s with }⟩
    rcases hy with hy | rfl
    · exact mem_addSet_left (hc.defs y hy)
    · exact mem_addSet_self _ _
theorem Placed.defineNode {m : Node} (hx : ∀ x, m.kind = .name x .store → At env p n (.define x)) :
    Placed env p n B c (c.add fun x => m.kind = .name x .store) (addUserDefNode m) := by
  unfold addUserDefNode
  split
  · rename_i x hk
    exact (Placed.define (hx x hk)).post (surer_add_of fun y hy => by rw [hk] at hy; injection hy with hy _; exact hy.symm)
  · rename_i hk
    exact Placed.skip.post (surer_of (fun x hx => hx.elim id fun hx => absurd hx (hk x)) (fun _ h => h) rfl)
theorem Placed.eachAdd {α : Type} {f : α → V} {D : α → String → Prop} : ∀ {l : List α} {c : Place},
    (∀ a ∈ l, ∀ c, Placed env p n B c (c.add (D a)) (f a)) → Placed env p n B c (c.add fun x => ∃ a ∈ l, D a x) (each f l)
  | [], _, _ => Placed.skip.post (surer_of (fun _ hx => hx.elim id nofun) (fun _ h => h) rfl)
  | a :: l, c, h => by
    refine .seq (h a (by simp) c) ((eachAdd fun b hb => h b (by simp [hb])).post (surer_of (fun x hx => ?_) (fun _ h => h) rfl))
    rcases hx with hx | ⟨b, hb, hx⟩
    · exact .inl (.inl hx)
    · rcases List.mem_cons.mp hb with rfl | hb
      · exact .inl (.inr hx)
      · exact .inr ⟨b, hb, hx⟩
theorem Placed.optAdd {α : Type} {o : Option α} {k : α → V} {D : α → String → Prop} (h : ∀ a, o = some a → Placed env p n B c (c.add (D a)) (k a)) :
    Placed env p n B c (c.add fun x => ∃ a, o = some a ∧ D a x) (opt o V.skip k) := by
  cases o with
  | none => exact Placed.skip.post (surer_of (fun _ hx => hx.elim id nofun) (fun _ h => h) rfl)
  | some a => exact (h a rfl).post (surer_add_of fun x ⟨b, hb, hx⟩ => by injection hb with hb; exact hb ▸ hx)
theorem Placed.targets {t : Node} (hx : ∀ x, Binds t x → At env p n (.define x)) : Placed env p n B c (c.add (Binds t)) (addTargets t) :=
  (Placed.eachAdd fun m hm c => .defineNode fun x hk => hx x (binds_of_mem hm hk)).post (surer_add_of fun _ hb => binds_mem hb)
theorem Placed.ellipsis {m : Node} (hm : InSlice n m) :
    Placed env p n B c { c with slices := fun u => c.slices u ∨ (m.kind = .const .ellipsis ∧ m.info.uid = u) } (markEllipsis m) := by
  unfold markEllipsis V.when
  split
  · rename_i he
    have he : m.kind = .const .ellipsis := of_decide_eq_true he
    refine .of_traced ((closed_traced env Any p n (keeps_any env p)).ellipsis ⟨m, hm, he, rfl⟩) fun s t _ hc hv => ?_
    rw [upd_run hv]
    refine ⟨⟨hc.defs, fun u hu => ?_, hc.depth⟩, { News.refl n B s with }⟩
    rcases hu with hu | ⟨_, rfl⟩
    · exact List.mem_append_left _ (hc.slices u hu)
    · exact List.mem_append_right _ (.head _)
  · rename_i he
    refine Placed.skip.post (surer_of (fun _ h => h) (fun u hu => hu.elim id fun hk => absurd (decide_eq_true hk.1) he) rfl)
theorem Placed.eachEllipsis : ∀ {l : List Node} {c : Place}, (∀ m ∈ l, InSlice n m) →
    Placed env p n B c { c with slices := fun u => c.slices u ∨ ∃ m ∈ l, m.kind = .const .ellipsis ∧ m.info.uid = u } (each markEllipsis l)
  | [], _, _ => Placed.skip.post (surer_of (fun _ h => h) (fun _ hx => hx.elim id nofun) rfl)
  | a :: l, c, h => by
    refine .seq (Placed.ellipsis (h a (by simp))) ((eachEllipsis fun b hb => h b (by simp [hb])).post (surer_of (fun _ h => h) (fun u hx => ?_) rfl))
    rcases hx with hx | ⟨b, hb, hx⟩
    · exact .inl (.inl hx)
    · rcases List.mem_cons.mp hb with rfl | hb
      · exact .inl (.inr hx)
      · exact .inr ⟨b, hb, hx⟩
theorem Placed.subscripted {sl : Node} (hm : ∀ e, SelfOrElement sl e → InSlice n e) :
    Placed env p n B c { c with slices := fun u => c.slices u ∨ ∃ e, SelfOrElement sl e ∧ e.kind = .const .ellipsis ∧ e.info.uid = u }
      (markSubscript sl) := by
  unfold markSubscript
  have h1 := hm sl (.inl rfl)
  split
  · rename_i ctx hk
    refine .seq (Placed.ellipsis h1) ((Placed.eachEllipsis fun m hm' => hm m (.inr ⟨⟨ctx, hk⟩, hm'⟩)).post (surer_of (fun _ h => h) (fun u hu => ?_) rfl))
    rcases hu with hu | ⟨e, he, hx⟩
    · exact .inl (.inl hu)
    · rcases he with rfl | ⟨_, he⟩
      · exact .inl (.inr hx)
      · exact .inr ⟨e, he, hx⟩
  · rename_i hk
    refine .seq (Placed.ellipsis h1) (Placed.skip.post (surer_of (fun _ h => h) (fun u hu => ?_) rfl))
    rcases hu with hu | ⟨e, he, hx⟩
    · exact .inl hu
    · rcases he with rfl | ⟨⟨ctx, hc⟩, _⟩
      · exact .inr hx
      · exact absurd hc (hk ctx)
theorem Placed.slice (hn : n.kind = .subscript) : Placed env p n B (c.own n) (c.enter n) (opt (n.field .slice) V.skip markSlice) := by
  cases hs : n.field .slice with
  | none =>
    refine Placed.skip.post (surer_of (fun _ h => h) (fun u hu => hu.elim id ?_) rfl)
    rintro ⟨e, ⟨_, sl, h, _⟩, _⟩
    rw [hs] at h; cases h
  | some sl =>
    have uniq : ∀ {e : Node}, InSlice n e → (sl.kind = .index ∧ ∃ v, sl.field .value = some v ∧ SelfOrElement v e) ∨
        (sl.kind = .extSlice ∧ e ∈ sl.fields .dims) ∨ (sl.kind ≠ .index ∧ sl.kind ≠ .extSlice ∧ SelfOrElement sl e) := by
      rintro e ⟨_, sl', h, he⟩
      rw [hs] at h; injection h with h; subst h
      exact he
    show Placed env p n B (c.own n) (c.enter n) (markSlice sl)
    unfold markSlice
    split
    · rename_i hk
      refine (Placed.eachEllipsis fun m hm => ⟨hn, sl, hs, .inr (.inl ⟨hk, hm⟩)⟩).post (surer_of (fun _ h => h) (fun u hu => ?_) rfl)
      rcases hu with hu | ⟨e, he, hx⟩
      · exact .inl hu
      · rcases uniq he with ⟨h1, -⟩ | ⟨-, h1⟩ | ⟨-, h1, -⟩
        · rw [hk] at h1; cases h1
        · exact .inr ⟨e, h1, hx⟩
        · exact absurd hk h1
    · rename_i hk
      cases hv : sl.field .value with
      | none =>
        refine Placed.skip.post (surer_of (fun _ h => h) (fun u hu => hu.elim id ?_) rfl)
        rintro ⟨e, he, -⟩
        rcases uniq he with ⟨-, v, h1, -⟩ | ⟨h1, -⟩ | ⟨h1, -⟩
        · rw [hv] at h1; cases h1
        · rw [hk] at h1; cases h1
        · exact absurd hk h1
      | some v =>
        refine (Placed.subscripted (sl := v) fun e he => ⟨hn, sl, hs, .inl ⟨hk, v, hv, he⟩⟩).post (surer_of (fun _ h => h) (fun u hu => ?_) rfl)
        rcases hu with hu | ⟨e, he, hx⟩
        · exact .inl hu
        · rcases uniq he with ⟨-, v', h1, h2⟩ | ⟨h1, -⟩ | ⟨h1, -⟩
          · rw [hv] at h1; injection h1 with h1; subst h1; exact .inr ⟨e, h2, hx⟩
          · rw [hk] at h1; cases h1
          · exact absurd hk h1
    · rename_i hx hi
      refine (Placed.subscripted (sl := sl) fun e he => ⟨hn, sl, hs, .inr (.inr ⟨hi, hx, he⟩)⟩).post (surer_of (fun _ h => h) (fun u hu => ?_) rfl)
      rcases hu with hu | ⟨e, he, hx'⟩
      · exact .inl hu
      · rcases uniq he with ⟨h1, -⟩ | ⟨h1, -⟩ | ⟨-, -, h1⟩
        · exact absurd h1 hi
        · exact absurd h1 hx
        · exact .inr ⟨e, h1, hx'⟩

/-! ### Parts -/

theorem leaves_mem {i : Node} {x : String} (h : Leaves env i x) {s t : S} (hv : visit env i s = .ok t) : x ∈ t.userDefs := by
  rcases h with ⟨m, hr, hm, hi⟩ | ⟨hn, hd⟩
  · obtain ⟨a, b, _, h2, h3⟩ := reachFlat_runs hr _ _ hv
    obtain ⟨a', b', _, h2', h3'⟩ := introduces_runs hi hm _ _ h2
    rw [upd_run h2'] at h3'
    exact h3.defs (h3'.defs (mem_addSet_self _ _))
  · have hd : ∃ a ∈ i.kids, a.kind = .arg x ∧ (a.fld = .args ∨ a.fld = .posonlyargs ∨ a.fld = .kwonlyargs ∨ a.fld = .vararg ∨ a.fld = .kwarg) := by
      simpa [Defines, DefinesFunction, hn] using hd
    obtain ⟨a, ha, hk, hf⟩ := hd
    have hmem : a ∈ i.fields .args ++ i.fields .posonlyargs ++ i.fields .kwonlyargs ++ i.fields .vararg ++ i.fields .kwarg := by
      simp only [List.mem_append, Node.fields, List.mem_filter, decide_eq_true_eq]
      rcases hf with hf | hf | hf | hf | hf <;> simp [ha, hf]
    rw [visitMk] at hv
    unfold visitAlg at hv
    simp only [hn] at hv
    unfold visitArguments at hv
    obtain ⟨u, h1, h2⟩ := seq_run hv
    obtain ⟨v, _, h1⟩ := seq_run h1
    have hr : RunsIn Flat (addUserDef x) (each (fun a => opt (argName a) skip addUserDef)
        (i.fields .args ++ i.fields .posonlyargs ++ i.fields .kwonlyargs ++ i.fields .vararg ++ i.fields .kwarg)) := by
      refine .eachOf .flat hmem ?_ fun y _ => .optSkip fun z _ => (closed_growing env i).userDef trivial
      unfold argName
      rw [hk]
      exact .here .flat
    obtain ⟨b, d, _, h3, h4⟩ := hr _ _ h1
    rw [upd_run h3] at h4
    exact (gen_growing env i u t h2).defs (h4.defs (mem_addSet_self _ _))

theorem Placed.leaves {k : Node} (h : Placed env p n B c c (visit env k)) : Placed env p n B c (c.add (Leaves env k)) (visit env k) := fun s t hl hc hv =>
  let d := h s t hl hc hv
  { d with fits := ⟨fun x hx => hx.elim (d.fits.defs x) fun hx => leaves_mem hx hv, d.fits.slices, d.fits.depth⟩ }

theorem Placed.eachKids {o : Place} : ∀ {l : List Node} {D : Node → Prop},
    (∀ a k b, l = a ++ k :: b → Placed env p n B (o.after env fun i => D i ∨ i ∈ a) (o.after env fun i => D i ∨ i ∈ a) (visit env k)) →
    Placed env p n B (o.after env D) (o.after env fun i => D i ∨ i ∈ l) (each Child.visit (visitKids env l))
  | [], D, _ => Placed.skip.post (surer_after fun i hi => hi.elim id nofun)
  | k :: l, D, h => by
    have h0 := h [] k l rfl
    rw [after_congr (l := fun i => D i ∨ i ∈ ([] : List Node)) (l' := D) (by simp)] at h0
    have h1 : Surer ((o.after env D).add (Leaves env k)) (o.after env fun i => D i ∨ i = k) := surer_of (fun x hx => by
      rcases hx with hx | ⟨i, hi | rfl, hx⟩
      · exact .inl (.inl hx)
      · exact .inl (.inr ⟨i, hi, hx⟩)
      · exact .inr hx) (fun _ h => h) rfl
    refine .seq (h0.leaves.post h1) ((eachKids (D := fun i => D i ∨ i = k) fun a k' b hab => ?_).post (surer_after fun i hi => ?_))
    · have h2 := h (k :: a) k' b (by rw [hab]; rfl)
      rw [after_congr (l := fun i => D i ∨ i ∈ k :: a) (l' := fun i => (D i ∨ i = k) ∨ i ∈ a) (by simp [or_assoc])] at h2
      exact h2
    · simpa [or_assoc] using hi

theorem Placed.gen {o : Place} {l : List Node} {D : Node → Prop} (q : Node)
    (h : ∀ a k b, l = a ++ k :: b → Placed env p n B ((o.after env fun i => D i ∨ i ∈ a).deeper) ((o.after env fun i => D i ∨ i ∈ a).deeper) (visit env k)) :
    Placed env p n B (o.after env D) (o.after env fun i => D i ∨ i ∈ l) (gen env q (visitKids env l)) := by
  have h1 := Placed.eachKids (o := o.deeper) (D := D) h
  refine .seq (.seq (fun s t hl hc hv => ?_) h1) (fun s t hl hc hv => ?_)
  · obtain ⟨ln, ot, rfl⟩ := genEnter_run hv
    exact ⟨{ hl with }, ⟨hc.defs, hc.slices, congrArg (· + 1) hc.depth⟩, { News.refl n B s with }, List.prefix_refl _⟩
  · rw [upd_run hv]
    exact ⟨{ hl with }, ⟨hc.defs, hc.slices, by have := hc.depth; simp only [this]; rfl⟩, { News.refl n B s with }, List.prefix_refl _⟩

theorem visitKids_filter (q : Node → Bool) : ∀ ks : List Node, (visitKids env ks).filter (fun c => q c.node) = visitKids env (ks.filter q)
  | [] => rfl
  | k :: ks => by
    have ih := visitKids_filter q ks
    show List.filter _ (_ :: visitKids env ks) = _
    by_cases hq : q k = true
    · simp only [List.filter_cons, hq, if_true]; rw [ih]; rfl
    · simp only [List.filter_cons, hq]; exact ih

theorem after_none : c.after env (fun _ => False) = c := by
  show { c with defs := _ } = c
  have : (fun x => c.defs x ∨ ∃ i : Node, False ∧ Leaves env i x) = c.defs := funext fun x => propext ⟨fun h => h.elim id fun ⟨_, h, _⟩ => h.elim, .inl⟩
  rw [this]
theorem own_eq (h : ∀ x, ¬ DefinesFirst n x) : c.own n = c := by
  show { c with defs := _ } = c
  have : (fun x => c.defs x ∨ DefinesFirst n x) = c.defs := funext fun x => propext ⟨fun hx => hx.elim id fun hx => (h x hx).elim, .inl⟩
  rw [this]
theorem enter_eq (h : n.kind ≠ .subscript) : c.enter n = c.own n := by
  show Place.mk (c.own n).defs _ (c.own n).depth = c.own n
  have : (fun u => c.slices u ∨ ∃ e, InSlice n e ∧ e.kind = .const .ellipsis ∧ e.info.uid = u) = c.slices :=
    funext fun x => propext ⟨fun hx => hx.elim id fun ⟨_, hx, _⟩ => (h hx.1).elim, .inl⟩
  rw [this]; rfl

theorem Placed.gate {c₁ : Place} {v : V} (h : Placed env p n B c c₁ v) (hs : Surer c c₁) : Placed env p n B c c₁ (gate env n v) := by
  unfold Vermin.gate
  split
  · exact Placed.skip.post hs
  · exact h

theorem Placed.alt {c₁ : Place} {b : Bool} {v w : V} (hv : b = true → Placed env p n B c c₁ v) (hw : b = false → Placed env p n B c c₁ w) :
    Placed env p n B c c₁ (alt b v w) := by
  cases b with
  | true => exact hv rfl
  | false => exact hw rfl

/-- The parts can be looked at from where they are. -/
def PartsPlaced (env : Env) (p n : Node) : Prop := ∀ k, sizeOf k < sizeOf n → ∀ c, Placed env p k (Backs env p c k) c c (visit env k)

theorem filter_split {q : Node → Bool} : ∀ {l a b : List Node} {k : Node}, l.filter q = a ++ k :: b →
    ∃ l₁ l₂, l = l₁ ++ k :: l₂ ∧ l₁.filter q = a ∧ q k = true := by
  intro l a b k h
  obtain ⟨l₁, l₂, rfl, h1, h2⟩ := List.filter_eq_append_iff.mp h
  obtain ⟨l₃, l₄, rfl, h3, h4, h5⟩ := List.filter_eq_cons_iff.mp h2
  refine ⟨l₁ ++ l₃, l₄, by simp, ?_, h4⟩
  rw [List.filter_append, h1, List.filter_eq_nil_iff.mpr h3, List.append_nil]

section parts
variable (hm : ¬ Marked env n) (ih : PartsPlaced env p n)
include hm ih

theorem Placed.parts {q : Node → Bool} (hq : ∀ k ∈ n.kids, q k = true ↔ ¬ Unevaluated env n k) (r : Node) :
    Placed env p n (Backs env p c n) (c.enter n) ((c.enter n).after env (· ∈ n.kids.filter q)) (Vermin.gen env r (visitKids env (n.kids.filter q))) := by
  have h := Placed.gen (env := env) (p := p) (n := n) (B := Backs env p c n) (o := c.enter n) (l := n.kids.filter q) (D := fun _ => False) r ?_
  · rw [after_none] at h
    exact h.post (surer_after fun i hi => .inr hi)
  · intro a k b hab
    obtain ⟨l₁, l₂, hl, ha, hk⟩ := filter_split hab
    have hmem : k ∈ n.kids := by rw [hl]; simp
    rw [after_congr (l := fun i => False ∨ i ∈ a) (l' := fun i => i ∈ l₁ ∧ ¬ Unevaluated env n i) fun i => ?_]
    · refine ((ih k (sizeOf_in hmem) _).mono fun ev => ?_).up hmem
      rintro ⟨c', m, h1, h2⟩
      exact ⟨c', m, .part hm ((hq k hmem).mp hk) hl h1, h2⟩
    · rw [← ha, List.mem_filter, false_or]
      refine and_congr_right fun hi => hq i ?_
      rw [hl]; exact List.mem_append_left _ hi

theorem Placed.allParts (hu : ∀ k ∈ n.kids, ¬ Unevaluated env n k) :
    Placed env p n (Backs env p c n) (c.enter n) ((c.enter n).after env (· ∈ n.kids)) (Vermin.gen env n (visitKids env n.kids)) := by
  have h := Placed.parts (c := c) hm ih (q := fun _ => true) (fun k hk => ⟨fun _ => hu k hk, fun _ => rfl⟩) n
  rwa [List.filter_eq_self.mpr fun _ _ => rfl] at h

theorem Placed.resultParts (hn : IsFunction n) :
    Placed env p n (Backs env p c n) (c.enter n) (c.enter n) (Vermin.gen env (dropReturns env n) (dropReturnsKids env (visitKids env n.kids))) := by
  have h := Placed.parts (c := c) hm ih (q := fun k => env.cfg.evalAnnotations || decide (k.fld ≠ .returns)) (fun k hk => ?_) (dropReturns env n)
  · unfold dropReturnsKids
    rw [visitKids_filter fun k => env.cfg.evalAnnotations || decide (k.fld ≠ .returns)]
    exact h.post (surer_after_self _)
  · have : n.kind ≠ .annAssign := by obtain ⟨x, hn | hn⟩ := hn <;> (rw [hn]; nofun)
    cases he : env.cfg.evalAnnotations <;> simp [Unevaluated, this, hn, he]

theorem Placed.finalParts (hn : n.kind = .try) : Placed env p n (Backs env p c n) c c (each Child.visit (finalOf (visitKids env n.kids))) := by
  unfold finalOf
  rw [visitKids_filter fun k => decide (k.fld = .finalbody)]
  have h := Placed.eachKids (env := env) (p := p) (n := n) (B := Backs env p c n) (o := c) (l := n.fields .finalbody) (D := fun _ => False) ?_
  · rw [after_none] at h
    exact h.post (surer_after_self _)
  · intro a k b hab
    have hmem : k ∈ n.kids := (List.mem_filter.mp (show k ∈ n.fields .finalbody by rw [hab]; simp)).1
    rw [after_congr (l := fun i => False ∨ i ∈ a) (l' := (· ∈ a)) fun i => by simp]
    refine ((ih k (sizeOf_in hmem) _).mono fun ev => ?_).up hmem
    rintro ⟨c', m, h1, h2⟩
    exact ⟨c', m, .finally hm hn hab h1, h2⟩

theorem Placed.bodyParts {name : String} (hn : n.kind = .classDef name) :
    Placed env p n (Backs env p c n) ((c.enter n).after env (· ∈ n.kids)) ((c.enter n).after env (· ∈ n.kids)) (each Child.gvisit (bodyOf (visitKids env n.kids))) := by
  unfold bodyOf
  rw [visitKids_filter fun k => decide (k.fld = .body)]
  have h : ∀ l : List Node, (∀ k ∈ l, k ∈ n.fields .body) →
      Placed env p n (Backs env p c n) ((c.enter n).after env (· ∈ n.kids)) ((c.enter n).after env (· ∈ n.kids)) (each Child.gvisit (visitKids env l)) := by
    intro l
    induction l with
    | nil => exact fun _ => .skip
    | cons k l ihl =>
      intro hl
      have hk := hl k (.head _)
      have hmem : k ∈ n.kids := (List.mem_filter.mp hk).1
      refine .seq ?_ (ihl fun k hk => hl k (.tail _ hk))
      have : (visitNode env k).2 = Vermin.gen env k (visitKids env k.kids) := by cases k; rfl
      show Placed _ _ _ _ _ _ (visitNode env k).2
      rw [this]
      refine (Placed.gen (D := (· ∈ n.kids)) k fun a j b hab => ?_).post (surer_after fun i => .inl)
      have hj : j ∈ k.kids := by rw [hab]; simp
      refine (((ih j (Nat.lt_trans (sizeOf_in hj) (sizeOf_in hmem)) _).mono fun ev => ?_).up hj).up hmem
      rintro ⟨c', m, h1, h2⟩
      exact ⟨c', m, .again hm hn hk hab h1, h2⟩
  exact h _ fun k hk => hk

end parts

theorem visitAlg_placed (hm : ¬ Marked env n) (ih : PartsPlaced env p n) :
    Placed env p n (Backs env p c n) c c (visitAlg env n (visitKids env n.kids)) := by
  have hB : ∀ ev, AtPlace env p n (c.own n) ev → (∀ x, Event.subject ev = some x → ¬ (c.own n).defs x) → Backs env p c n ev :=
    fun ev h1 h2 => ⟨c, n, .here c n, hm, h1, h2⟩
  have act := acting_placed hB
  have hA : ∀ ev, EmitsIn env (fun s => (c.own n).Fits s ∧ Known env Any p n s) n ev → AtPlace env p n (c.own n) ev :=
    fun ev h => emitsIn_mono (fun s h => ⟨h.1, h.2.toLearnt⟩) h
  have found : ∀ (f : Flag) msg vs line pl, AtPlace env p n (c.own n) (.flag f) → Placed env p n (Backs env p c n) c c (found env f msg vs line pl) :=
    fun f msg vs line pl hf => .found ⟨_, n, .here _ n, hm, hf, by rintro x ⟨⟩⟩ (atPlace_at hf) msg vs line pl
  have hown : Surer (c.own n) c := surer_own c n
  have all : (∀ k ∈ n.kids, ¬ Unevaluated env n k) → n.kind ≠ .subscript →
      Placed env p n (Backs env p c n) (c.own n) (c.own n) (gen env n (visitKids env n.kids)) := fun hu hs => by
    have h := Placed.allParts (c := c) hm ih hu
    rw [enter_eq hs] at h
    exact h.post (surer_after_self _)
  have plain : (∀ x, ¬ DefinesFirst n x) → n.kind ≠ .subscript → (∀ k ∈ n.kids, ¬ Unevaluated env n k) → ¬ IsFunction n → (∀ name, n.kind ≠ .classDef name) →
      Placed env p n (Backs env p c n) c c (visitAlg env n (visitKids env n.kids)) := fun h1 h2 h3 h4 h5 => by
    have h6 := own_eq (c := c) h1
    have all := all h3 h2
    rw [h6] at act hA all
    exact act.visitAlg hA (cs' := visitKids (env.show env.display) n.kids)
      { all := all, results := fun h => (h4 h).elim, finals := fun h => Placed.finalParts hm ih h, bodies := fun h => (h5 _ h).elim }
  have uneval : ∀ {k : Kind}, n.kind = k → k ≠ .annAssign → (∀ x, k ≠ .functionDef x) → (∀ x, k ≠ .asyncFunctionDef x) → ∀ k ∈ n.kids, ¬ Unevaluated env n k :=
    fun hk h1 h2 h3 j _ hx => by
      subst hk
      rcases hx.2 with hx | ⟨⟨x, hx | hx⟩, _⟩
      · exact h1 hx
      · exact h2 x hx
      · exact h3 x hx
  have below : Surer (c.own n) ⟨fun _ => False, c.slices, c.depth⟩ := surer_of nofun (fun _ h => h) rfl
  have single : (n.kind = .augAssign ∨ n.kind = .annAssign ∨ n.kind = .namedExpr) →
      Placed env p n (Backs env p c n) c (c.own n) (opt (n.field .target) skip addUserDefNode) := fun hn => by
    refine (Placed.optAdd fun t ht => .defineNode fun x hx => .inr (.inr (.inr (.inr (.inl ⟨hn, t, ht, hx⟩))))).post (surer_add_of fun x hx => ?_)
    rcases hn with hn | hn | hn <;> simpa [DefinesFirst, Defines, DefinesFunction, hn] using hx
  have function : ∀ {name : String}, DefinesFunction n name → Placed env p n (Backs env p c n) c (c.own n) (handleFunctionDef env n name (visitKids env n.kids)) := fun {name} hn => by
    have h1 : Placed env p n (Backs env p c n) c (c.own n) (addUserDef name) :=
      (Placed.define (.inl hn)).post (surer_add_of fun x hx => by rcases hn with hn | hn <;> simpa [DefinesFirst, Defines, DefinesFunction, hn, eq_comm] using hx)
    have h2 := Placed.resultParts (c := c) hm ih ⟨name, hn⟩
    rw [enter_eq (by rcases hn with hn | hn <;> (rw [hn]; nofun))] at h2
    exact (((h1.seq (act.dirFuncs hA hn)).seq (act.funcDecos hA ⟨name, hn⟩)).seq (.inScope h2 below)).seq (act.funcAnns hA ⟨name, hn⟩)
  have comp : (n.kind = .listComp ∨ n.kind = .generatorExp ∨ n.kind = .setComp ∨ n.kind = .dictComp) →
      Placed env p n (Backs env p c n) c c (visitComp env n (visitKids env n.kids)) := fun hn => by
    refine .inScope (c₁ := c.own n) (.seq ?_ (all ?_ (by rcases hn with hn | hn | hn | hn <;> (rw [hn]; nofun)))) below
    · refine (Placed.eachAdd fun g hg c => Placed.optAdd fun t ht => .targets fun x hx =>
        .inr (.inr (.inr (.inr (.inr (.inr (.inr (.inl ⟨hn, g, hg, t, ht, hx⟩)))))))).post (surer_add_of fun x hx => ?_)
      rcases hn with hn | hn | hn | hn <;> simpa [DefinesFirst, Defines, DefinesFunction, hn] using hx
    · rcases hn with hn | hn | hn | hn <;> exact uneval hn nofun nofun nofun
  have withs : (n.kind = .with ∨ n.kind = .asyncWith) → Placed env p n (Backs env p c n) c c (handleWith env n (visitKids env n.kids)) := fun hn => by
    refine .inScope (c₁ := c.own n) (.seq (.seq ?_ (.when fun hl => ?_)) (all ?_ (by rcases hn with hn | hn <;> (rw [hn]; nofun)))) below
    · refine (Placed.eachAdd fun w hw c => Placed.optAdd fun t ht => .targets fun x hx =>
        .inr (.inr (.inr (.inr (.inr (.inr (.inl ⟨hn, w, hw, t, ht, hx⟩))))))).post (surer_add_of fun x hx => ?_)
      rcases hn with hn | hn <;> simpa [DefinesFirst, Defines, DefinesFunction, hn] using hx
    · have hl : 1 < (n.fields .items).length := of_decide_eq_true hl
      exact (act.found _ _ _ _ (hA (.flag .multiWithitem) ⟨hn, hl⟩)).seq (.when fun hp => act.found _ _ _ _ (hA (.flag .withParentheses) ⟨hn, hl, isWithParen_text hp⟩))
    · rcases hn with hn | hn <;> exact uneval hn nofun nofun nofun
  have fors : (n.kind = .for ∨ n.kind = .asyncFor) → Placed env p n (Backs env p c n) c c (handleFor env n (visitKids env n.kids)) := fun hn => by
    refine (Placed.seq ?_ (.inScope (c₁ := c.own n) (.seq (.seq (.seq ?_ (act.forDict hA hn)) (all ?_ (by rcases hn with hn | hn <;> (rw [hn]; nofun)))) ?_) below)).gate (.refl c)
    · exact .other' (fun _ h => { h with }) (fun _ h => { h with }) (fun _ => rfl) (fun _ => rfl) fun s => { News.refl n _ s with }
    · refine (Placed.optAdd fun t ht => .targets fun x hx => .inr (.inr (.inr (.inr (.inr (.inl ⟨hn, t, ht, hx⟩)))))).post (surer_add_of fun x hx => ?_)
      rcases hn with hn | hn <;> simpa [DefinesFirst, Defines, DefinesFunction, hn] using hx
    · rcases hn with hn | hn <;> exact uneval hn nofun nofun nofun
    · exact .other' (fun _ h => { h with }) (fun _ h => { h with }) (fun _ => rfl) (fun _ => rfl) fun s => { News.refl n _ s with }
  cases hn : n.kind with
  | assign =>
    rw [show visitAlg env n (visitKids env n.kids) = visitAssign env n (visitKids env n.kids) by unfold visitAlg; simp only [hn]]
    have h1 : Placed env p n (Backs env p c n) c (c.own n) (each addTargets (n.fields .targets)) :=
      (Placed.eachAdd fun t ht _ => .targets fun x hx => .inr (.inr (.inr (.inl ⟨hn, t, ht, hx⟩)))).post
        (surer_add_of fun x hx => by simpa [DefinesFirst, Defines, DefinesFunction, hn] using hx)
    exact ((((h1.seq (act.addNameResAssign hA (.inl hn))).seq (all (uneval hn nofun nofun nofun) (by rw [hn]; nofun))).post hown).gate (.refl c))
  | augAssign =>
    rw [show visitAlg env n (visitKids env n.kids) = visitAugAssign env n (visitKids env n.kids) by unfold visitAlg; simp only [hn]]
    exact (((((single (.inl hn)).seq (act.addNameResAssign hA (.inr (.inl hn)))).seq (.when fun ho => .optSkip fun t ht => .optSkip fun v hv =>
      act.augBitOr hA hn (operator_iff (of_decide_eq_true ho)) ht hv)).seq (all (uneval hn nofun nofun nofun) (by rw [hn]; nofun))).post hown).gate (.refl c)
  | annAssign =>
    rw [show visitAlg env n (visitKids env n.kids) = visitAnnAssign env n (visitKids env n.kids) by unfold visitAlg; simp only [hn]]
    have h1 : Placed env p n (Backs env p c n) (c.own n) (c.own n) (V.alt env.cfg.evalAnnotations (gen env n (visitKids env n.kids)) (setFlag .maybeAnnotations)) :=
      .alt (fun he => all (fun k _ hx => by rw [hx.1] at he; cases he) (by rw [hn]; nofun)) fun he =>
        act.mark (hA (.flag .maybeAnnotations) ⟨⟨he, .inl hn⟩, fun hk => by rw [hn] at hk; cases hk⟩) rfl
    have h2 : Placed env p n (Backs env p c n) (c.own n) (c.own n) (setFlag .annotations) :=
      .flag (hB _ (show AtPlace env p n (c.own n) (.flag .annotations) from .inl hn) (by rintro x ⟨⟩)) (show At env p n (.flag .annotations) from .inl hn)
    have h3 : Placed env p n (Backs env p c n) (c.own n) (c.own n) (opt (n.field .annotation) skip (annKind env n)) :=
      .optSkip fun a ha => act.ite (a' := skip) (b' := skip) (fun hf => act.found _ _ _ _ (hA (.flag .finalAnnotations) ⟨hn, a, ha, isAnn_iff hf⟩)) fun _ =>
        Placed.when fun hf => act.found _ _ _ _ (hA (.flag .literalAnnotations) (.inl ⟨hn, a, ha, isAnn_iff hf⟩))
    exact (((((((single (.inr (.inl hn))).seq (act.addNameResAssign hA (.inr (.inr hn)))).seq h1).seq h2).seq (act.found _ _ _ _ (hA (.flag .varAnnotations) hn))).seq h3).post
      hown).gate (.refl c)
  | functionDef name =>
    rw [show visitAlg env n (visitKids env n.kids) = visitFunctionDef env n name (visitKids env n.kids) by unfold visitAlg; simp only [hn]]
    exact ((Placed.yieldScope (function (.inl hn))).post hown).gate (.refl c)
  | asyncFunctionDef name =>
    rw [show visitAlg env n (visitKids env n.kids) = visitAsyncFunctionDef env n name (visitKids env n.kids) by unfold visitAlg; simp only [hn]]
    have hf : AtPlace env p n (c.own n) (.flag .coroutines) := .inl ⟨name, hn⟩
    exact ((Placed.asyncScope hn (hB _ hf (by rintro x ⟨⟩)) (fun hg => hB _ hg (by rintro x ⟨⟩)) (atPlace_at hf) (function (.inr hn))).post hown).gate (.refl c)
  | classDef name =>
    rw [show visitAlg env n (visitKids env n.kids) = visitClassDef env n name (visitKids env n.kids) by unfold visitAlg; simp only [hn]]
    have h1 : Placed env p n (Backs env p c n) c (c.own n) (addUserDef name) :=
      (Placed.define (.inr (.inl hn))).post (surer_add_of fun x hx => by simpa [DefinesFirst, Defines, DefinesFunction, hn, eq_comm] using hx)
    have h2 := Placed.allParts (c := c) hm ih (uneval hn nofun nofun nofun)
    have h3 := Placed.bodyParts (c := c) hm ih hn
    rw [enter_eq (by rw [hn]; nofun)] at h2 h3
    exact (((((((h1.seq (act.nameResType (hA _ (.inr ⟨hn, rfl⟩)))).seq (act.classDecos hA hn)).seq (act.metaclassKw hA hn)).seq h2).seq h3)).post
      ((surer_after_self _).trans hown)).gate (.refl c)
  | namedExpr =>
    rw [show visitAlg env n (visitKids env n.kids) = visitNamedExpr env n (visitKids env n.kids) by unfold visitAlg; simp only [hn]]
    exact (((((single (.inr (.inr hn))).seq (act.found _ _ _ _ (hA (.flag .namedExprs) hn))).seq (all (uneval hn nofun nofun nofun) (by rw [hn]; nofun)))).post hown).gate (.refl c)
  | arguments =>
    rw [show visitAlg env n (visitKids env n.kids) = visitArguments env n (visitKids env n.kids) by unfold visitAlg; simp only [hn]]
    refine .post (.seq (.seq (.seq (.when fun hc => found .posOnlyArgs _ _ _ _ ⟨hn, Acting.exists_of_nonempty hc⟩) (.when fun hc => found .kwOnlyArgs _ _ _ _ ⟨hn, Acting.exists_of_nonempty hc⟩)) ?_)
      (all (uneval hn nofun nofun nofun) (by rw [hn]; nofun))) hown
    refine (Placed.eachAdd fun a ha c => Placed.optAdd fun x hx => .define (Acting.arg_defines hn ha hx)).post (surer_add_of fun x hx => ?_)
    have hx : ∃ a ∈ n.kids, a.kind = .arg x ∧ (a.fld = .args ∨ a.fld = .posonlyargs ∨ a.fld = .kwonlyargs ∨ a.fld = .vararg ∨ a.fld = .kwarg) := by
      simpa [DefinesFirst, Defines, DefinesFunction, hn] using hx
    obtain ⟨a, ha, hk, hf⟩ := hx
    refine ⟨a, ?_, x, by unfold argName; rw [hk], rfl⟩
    simp only [List.mem_append, Node.fields, List.mem_filter, decide_eq_true_eq]
    rcases hf with hf | hf | hf | hf | hf <;> simp [ha, hf]
  | exceptHandler name =>
    rw [show visitAlg env n (visitKids env n.kids) = visitExceptHandler env n name (visitKids env n.kids) by unfold visitAlg; simp only [hn]]
    have hx : ∀ e, n.field .type = some e → ∀ m x, In m e → IsName m x → AtPlace env p n (c.own n) (.member x) := fun e he m x h1 h2 =>
      hA _ (.inr (.inr (.inr (.inr (.inr ⟨⟨name, hn⟩, e, m, he, h1, h2⟩)))))
    refine (Placed.seq (.when fun he => found .exceptStar _ _ _ _ ⟨⟨name, hn⟩, isExceptStar_text he⟩) (.inScope (c₁ := c.own n) (.seq (.seq ?_
      (.optSkip fun x h => act.namesAsMembers hA h (hx x h))) (all (uneval hn nofun nofun nofun) (by rw [hn]; nofun))) below)).gate (.refl c)
    exact (Placed.optAdd (o := name) (D := fun a x => x = a) fun x hx => .define (.inr (.inr (.inr (.inr (.inr (.inr (.inr (.inr (.inl (hx ▸ hn))))))))))).post
      (surer_add_of fun x hx => by
        have : name = some x := by simpa [DefinesFirst, Defines, DefinesFunction, hn] using hx
        exact ⟨x, this, rfl⟩)
  | listComp =>
    rw [show visitAlg env n (visitKids env n.kids) = visitComp env n (visitKids env n.kids) by unfold visitAlg; simp only [hn]]
    exact comp (.inl hn)
  | generatorExp =>
    rw [show visitAlg env n (visitKids env n.kids) = visitComp env n (visitKids env n.kids) by unfold visitAlg; simp only [hn]]
    exact comp (.inr (.inl hn))
  | setComp =>
    rw [show visitAlg env n (visitKids env n.kids) = visitSetComp env n (visitKids env n.kids) by unfold visitAlg; simp only [hn]]
    exact .seq (found .setComp _ _ _ _ hn) (comp (.inr (.inr (.inl hn))))
  | dictComp =>
    rw [show visitAlg env n (visitKids env n.kids) = visitDictComp env n (visitKids env n.kids) by unfold visitAlg; simp only [hn]]
    exact .seq (found .dictComp _ _ _ _ hn) (comp (.inr (.inr (.inr hn))))
  | «with» =>
    rw [show visitAlg env n (visitKids env n.kids) = visitWith env n (visitKids env n.kids) by unfold visitAlg; simp only [hn]]
    exact (Placed.seq (found .withStatement _ _ _ _ hn) (withs (.inl hn))).gate (.refl c)
  | asyncWith =>
    rw [show visitAlg env n (visitKids env n.kids) = visitAsyncWith env n (visitKids env n.kids) by unfold visitAlg; simp only [hn]]
    exact (Placed.seq (found .asyncWithStatement _ _ _ _ hn) (withs (.inr hn))).gate (.refl c)
  | «for» =>
    rw [show visitAlg env n (visitKids env n.kids) = handleFor env n (visitKids env n.kids) by unfold visitAlg; simp only [hn]]
    exact fors (.inl hn)
  | asyncFor =>
    rw [show visitAlg env n (visitKids env n.kids) = visitAsyncFor env n (visitKids env n.kids) by unfold visitAlg; simp only [hn]]
    exact (Placed.seq (found .asyncFor _ _ _ _ hn) (fors (.inr hn))).gate (.refl c)
  | subscript =>
    rw [show visitAlg env n (visitKids env n.kids) = visitSubscript env n (visitKids env n.kids) by unfold visitAlg; simp only [hn]]
    have h2 := (Placed.allParts (c := c) hm ih (uneval hn nofun nofun nofun)).post ((surer_after_self _).trans (surer_enter c n))
    have h3 := (((act.subscriptNames hA hn).seq (Placed.slice hn)).seq h2).post hown
    rw [own_eq fun x hx => by simp [DefinesFirst, Defines, DefinesFunction, hn] at hx] at h3
    exact h3.gate (.refl c)
  | _ =>
    exact plain (fun x hx => by simp [DefinesFirst, Defines, DefinesFunction, hn] at hx) (by rw [hn]; nofun)
      (fun k _ hx => by simp [Unevaluated, IsFunction, DefinesFunction, hn] at hx) (fun ⟨_, hx⟩ => by simp [hn] at hx) (by rw [hn]; nofun)

theorem visit_placed (env : Env) (p n : Node) (c : Place) : Placed env p n (Backs env p c n) c c (visit env n) := by
  by_cases hm : Marked env n
  · rw [marked_skip hm]; exact .skip
  · rw [visitMk]
    exact visitAlg_placed hm fun k _ c => visit_placed env p k c
termination_by sizeOf n

end

end Vermin
