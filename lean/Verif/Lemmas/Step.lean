import Verif.Lemmas.Closure
/-
What a visit does to the state.
-/
namespace Vermin
open Py V Spec

theorem seq_run {a b : V} {s t : S} (h : (a ;; b) s = .ok t) : ∃ u, a s = .ok u ∧ b u = .ok t := by
  cases ha : a s with
  | ok u => exact ⟨u, rfl, by simpa [V.seq, ha] using h⟩
  | error e => simp [V.seq, ha] at h

/-- A list is extended by elements of a kind. -/
def Grew {α : Type} (P : α → Prop) (l l' : List α) : Prop := ∃ d, l' = l ++ d ∧ ∀ x ∈ d, P x
namespace Grew
variable {α : Type} {P : α → Prop}
theorem refl (l : List α) : Grew P l l := ⟨[], by simp, by simp⟩
theorem trans {a b c : List α} (h : Grew P a b) (h' : Grew P b c) : Grew P a c := by
  obtain ⟨d, rfl, hd⟩ := h
  obtain ⟨e, rfl, he⟩ := h'
  exact ⟨d ++ e, by simp, fun x hx => (List.mem_append.mp hx).elim (hd x) (he x)⟩
theorem one {l : List α} {x : α} (h : P x) : Grew P l (l ++ [x]) := ⟨[x], rfl, by simpa using h⟩
theorem mono {R : α → Prop} (hPR : ∀ x, P x → R x) {l l' : List α} (h : Grew P l l') : Grew R l l' := by
  obtain ⟨d, rfl, hd⟩ := h
  exact ⟨d, rfl, fun x hx => hPR x (hd x hx)⟩
theorem sub {l l' : List α} (h : Grew P l l') {x : α} (hx : x ∈ l) : x ∈ l' := by
  obtain ⟨d, rfl, _⟩ := h
  exact List.mem_append_left _ hx
theorem new {l l' : List α} (h : Grew P l l') {x : α} (hx : x ∈ l') : x ∈ l ∨ P x := by
  obtain ⟨d, rfl, hd⟩ := h
  exact (List.mem_append.mp hx).imp id (hd x)
end Grew

/-- Some node of the tree gives rise to the event. -/
def Found (env : Env) (n : Node) (ev : Event) : Prop := ∃ m, In m n ∧ Emits env m ev

/-- What a visit of `n` may do. -/
structure Step (env : Env) (n : Node) (s t : S) : Prop where
  depth : t.depth = s.depth
  seenFor : t.seenFor = s.seenFor
  seenWhile : t.seenWhile = s.seenWhile
  tryFinally : t.tryFinally = s.tryFinally
  info : t.infoVersions = s.infoVersions
  defs : ∀ x ∈ s.userDefs, x ∈ t.userDefs
  out : Grew (fun _ => True) s.out t.out
  flags : Grew (fun f => Found env n (.flag f)) s.flags t.flags
  modules : Grew (fun m => Found env n (.module m) ∧ env.cfg.isExcluded m = false) s.modules t.modules
  members : Grew (fun m => Found env n (.member m) ∧ env.cfg.isExcluded m = false ∧ (env.tables.mem m).isSome = true) s.members t.members
  kwargs : Grew (fun p => Found env n (.kwarg p.1 p.2) ∧ env.cfg.isExcludedKwarg p.1 (kwText p.2) = false) s.kwargs t.kwargs
  decos : Grew (fun u => Found env n (.deco u) ∧ env.cfg.isExcluded u = false ∧ (env.tables.deco u).isSome = true) s.userFuncDecos t.userFuncDecos
  strftime : Grew (fun d => Found env n (.strftime d)) s.strftime t.strftime
  bytesDirs : Grew (fun d => Found env n (.bytesDir d)) s.bytesDirs t.bytesDirs
  typecodes : Grew (fun d => Found env n (.typecode d)) s.typecodes t.typecodes
  codecsErr : Grew (fun c => Found env n (.errorHandler c) ∧ env.cfg.isExcludedErrorHandler c.text = false) s.codecsErr t.codecsErr
  codecsEnc : Grew (fun c => Found env n (.encoding c) ∧ env.cfg.isExcludedEncoding c.text = false) s.codecsEnc t.codecsEnc
  yields : s.seenYield ≤ t.seenYield ∧ (s.seenYield < t.seenYield → Found env n .yield)
  awaits : s.seenAwait ≤ t.seenAwait ∧ (s.seenAwait < t.seenAwait → Found env n .await)

namespace Step
variable {env : Env} {n : Node}
theorem refl (s : S) : Step env n s s where
  depth := rfl
  seenFor := rfl
  seenWhile := rfl
  tryFinally := rfl
  info := rfl
  defs := fun _ h => h
  out := .refl _
  flags := .refl _
  modules := .refl _
  members := .refl _
  kwargs := .refl _
  decos := .refl _
  strftime := .refl _
  bytesDirs := .refl _
  typecodes := .refl _
  codecsErr := .refl _
  codecsEnc := .refl _
  yields := ⟨Nat.le_refl _, fun h => absurd h (Nat.lt_irrefl _)⟩
  awaits := ⟨Nat.le_refl _, fun h => absurd h (Nat.lt_irrefl _)⟩

theorem trans {s t u : S} (h : Step env n s t) (h' : Step env n t u) : Step env n s u where
  depth := h'.depth.trans h.depth
  seenFor := h'.seenFor.trans h.seenFor
  seenWhile := h'.seenWhile.trans h.seenWhile
  tryFinally := h'.tryFinally.trans h.tryFinally
  info := h'.info.trans h.info
  defs := fun x hx => h'.defs x (h.defs x hx)
  out := h.out.trans h'.out
  flags := h.flags.trans h'.flags
  modules := h.modules.trans h'.modules
  members := h.members.trans h'.members
  kwargs := h.kwargs.trans h'.kwargs
  decos := h.decos.trans h'.decos
  strftime := h.strftime.trans h'.strftime
  bytesDirs := h.bytesDirs.trans h'.bytesDirs
  typecodes := h.typecodes.trans h'.typecodes
  codecsErr := h.codecsErr.trans h'.codecsErr
  codecsEnc := h.codecsEnc.trans h'.codecsEnc
  yields := ⟨Nat.le_trans h.yields.1 h'.yields.1, fun hlt => by
    by_cases hx : s.seenYield < t.seenYield
    · exact h.yields.2 hx
    · exact h'.yields.2 (by have := h.yields.1; omega)⟩
  awaits := ⟨Nat.le_trans h.awaits.1 h'.awaits.1, fun hlt => by
    by_cases hx : s.seenAwait < t.seenAwait
    · exact h.awaits.2 hx
    · exact h'.awaits.2 (by have := h.awaits.1; omega)⟩

theorem up {k : Node} (hk : k ∈ n.kids) {s t : S} (h : Step env k s t) : Step env n s t := by
  have hf : ∀ ev, Found env k ev → Found env n ev := fun ev ⟨m, hm, he⟩ => ⟨m, .kid hk hm, he⟩
  exact {
    depth := h.depth
    seenFor := h.seenFor
    seenWhile := h.seenWhile
    tryFinally := h.tryFinally
    info := h.info
    defs := h.defs
    out := h.out
    flags := h.flags.mono fun _ => hf _
    modules := h.modules.mono fun _ hx => ⟨hf _ hx.1, hx.2⟩
    members := h.members.mono fun _ hx => ⟨hf _ hx.1, hx.2⟩
    kwargs := h.kwargs.mono fun _ hx => ⟨hf _ hx.1, hx.2⟩
    decos := h.decos.mono fun _ hx => ⟨hf _ hx.1, hx.2⟩
    strftime := h.strftime.mono fun _ => hf _
    bytesDirs := h.bytesDirs.mono fun _ => hf _
    typecodes := h.typecodes.mono fun _ => hf _
    codecsErr := h.codecsErr.mono fun _ hx => ⟨hf _ hx.1, hx.2⟩
    codecsEnc := h.codecsEnc.mono fun _ hx => ⟨hf _ hx.1, hx.2⟩
    yields := ⟨h.yields.1, fun hx => hf _ (h.yields.2 hx)⟩
    awaits := ⟨h.awaits.1, fun hx => hf _ (h.awaits.2 hx)⟩ }

/-- Fields that are none of the findings. -/
theorem other {s t : S} (hd : t.depth = s.depth) (h1 : t.seenFor = s.seenFor) (h2 : t.seenWhile = s.seenWhile)
    (h3 : t.tryFinally = s.tryFinally) (hi : t.infoVersions = s.infoVersions) (hdefs : ∀ x ∈ s.userDefs, x ∈ t.userDefs)
    (ho : Grew (fun _ => True) s.out t.out) (hf : t.flags = s.flags) (hm : t.modules = s.modules) (hmm : t.members = s.members)
    (hkw : t.kwargs = s.kwargs) (hde : t.userFuncDecos = s.userFuncDecos) (hs : t.strftime = s.strftime) (hb : t.bytesDirs = s.bytesDirs)
    (hty : t.typecodes = s.typecodes) (he : t.codecsErr = s.codecsErr) (hc : t.codecsEnc = s.codecsEnc) (hy : t.seenYield = s.seenYield)
    (ha : t.seenAwait = s.seenAwait) : Step env n s t where
  depth := hd
  seenFor := h1
  seenWhile := h2
  tryFinally := h3
  info := hi
  defs := hdefs
  out := ho
  flags := hf ▸ .refl _
  modules := hm ▸ .refl _
  members := hmm ▸ .refl _
  kwargs := hkw ▸ .refl _
  decos := hde ▸ .refl _
  strftime := hs ▸ .refl _
  bytesDirs := hb ▸ .refl _
  typecodes := hty ▸ .refl _
  codecsErr := he ▸ .refl _
  codecsEnc := hc ▸ .refl _
  yields := hy ▸ ⟨Nat.le_refl _, fun h => absurd h (Nat.lt_irrefl _)⟩
  awaits := ha ▸ ⟨Nat.le_refl _, fun h => absurd h (Nat.lt_irrefl _)⟩
end Step

/-- All successful runs are steps. -/
def Steps (env : Env) (n : Node) (v : V) : Prop := ∀ s t, v s = .ok t → Step env n s t

theorem upd_run {f : S → S} {s t : S} (h : upd f s = .ok t) : t = f s := by
  injection h with h; exact h.symm

/-- Changes other than to findings, the output and `userDefs`. -/
theorem steps_upd {env : Env} {n : Node} {f : S → S} (h : ∀ s, Step env n s (f s)) : Steps env n (upd f) := by
  intro s t ht
  rw [upd_run ht]
  exact h s

theorem addLineCol_with (s : S) (e : Ent) (l c : Option Nat) : ∃ d, s.addLineCol e l c = { s with lineCol := d } := by
  cases l with
  | none => exact ⟨s.lineCol, rfl⟩
  | some l => exact ⟨_, rfl⟩

theorem verbosePrint_run {env : Env} {l : Nat} {msg : String} {ent : Option Ent} {line : LineArg} {vs : Option Req} {pl : Option Bool}
    {s t : S} (h : verbosePrint env l msg ent line vs pl s = .ok t) : ∃ o, t = { s with out := s.out ++ o } := by
  unfold verbosePrint at h
  cases hv : violates env vs with
  | error e => rw [hv] at h; cases h
  | ok b =>
    rw [hv] at h
    replace h : when _ _ s = .ok t := h
    unfold V.when at h
    split at h
    · exact ⟨_, upd_run h⟩
    · injection h with h; exact ⟨[], by rw [← h]; simp⟩

section
variable {env : Env} {n : Node}

theorem Steps.skip : Steps env n skip := fun s t h => by injection h with h; exact h ▸ .refl _
theorem Steps.seq {a b : V} (ha : Steps env n a) (hb : Steps env n b) : Steps env n (a ;; b) := by
  intro s t h
  obtain ⟨u, h1, h2⟩ := seq_run h
  exact (ha s u h1).trans (hb u t h2)
theorem Steps.rd {f : S → V} (hf : ∀ s, Steps env n (f s)) : Steps env n (rd f) := fun s t h => hf s s t h
theorem Steps.when {c : Bool} {a : V} (ha : c = true → Steps env n a) : Steps env n (when c a) := by
  cases c with
  | true => exact ha rfl
  | false => exact Steps.skip
theorem Steps.print (l msg ent line vs pl) : Steps env n (verbosePrint env l msg ent line vs pl) := by
  intro s t h
  obtain ⟨o, rfl⟩ := verbosePrint_run h
  exact Step.other rfl rfl rfl rfl rfl (fun _ h => h) ⟨o, rfl, fun _ _ => trivial⟩ rfl rfl rfl rfl rfl rfl rfl rfl rfl rfl rfl rfl
theorem Steps.same {f : S → S} (hd : ∀ s, (f s).depth = s.depth) (h1 : ∀ s, (f s).seenFor = s.seenFor)
    (h2 : ∀ s, (f s).seenWhile = s.seenWhile) (h3 : ∀ s, (f s).tryFinally = s.tryFinally)
    (hi : ∀ s, (f s).infoVersions = s.infoVersions) (hdefs : ∀ s, ∀ x ∈ s.userDefs, x ∈ (f s).userDefs)
    (ho : ∀ s, (f s).out = s.out) (hf : ∀ s, (f s).flags = s.flags) (hm : ∀ s, (f s).modules = s.modules) (hmm : ∀ s, (f s).members = s.members)
    (hkw : ∀ s, (f s).kwargs = s.kwargs) (hde : ∀ s, (f s).userFuncDecos = s.userFuncDecos) (hs : ∀ s, (f s).strftime = s.strftime)
    (hb : ∀ s, (f s).bytesDirs = s.bytesDirs) (hty : ∀ s, (f s).typecodes = s.typecodes) (he : ∀ s, (f s).codecsErr = s.codecsErr)
    (hc : ∀ s, (f s).codecsEnc = s.codecsEnc) (hy : ∀ s, (f s).seenYield = s.seenYield) (ha : ∀ s, (f s).seenAwait = s.seenAwait) :
    Steps env n (upd f) :=
  steps_upd fun s => Step.other (hd s) (h1 s) (h2 s) (h3 s) (hi s) (hdefs s) (ho s ▸ .refl _) (hf s) (hm s) (hmm s) (hkw s) (hde s) (hs s)
    (hb s) (hty s) (he s) (hc s) (hy s) (ha s)

theorem Steps.flag {f : Flag} (h : Found env n (.flag f)) : Steps env n (setFlag f) := by
  refine steps_upd fun s => ?_
  unfold S.set
  by_cases hc : s.flags.contains f = true
  · simp only [hc, if_true]; exact .refl _
  · have hr := Step.refl (env := env) (n := n) s
    simp only [hc]
    exact { hr with
      flags := .one h }

theorem genEnter_run {m : Node} {s t : S} (h : genEnter env m s = .ok t) :
    ∃ l o, t = { s with line := l, depth := s.depth + 1, out := s.out ++ o } := by
  unfold genEnter at h
  obtain ⟨u, h1, h3⟩ := seq_run h
  obtain ⟨v, h1, h2⟩ := seq_run h1
  have h2 := upd_run h2
  have h1 : ∃ l, v = { s with line := l } := by
    cases hl : m.info.line with
    | none => rw [hl] at h1; injection h1 with h1; exact ⟨s.line, h1.symm⟩
    | some l =>
      rw [hl] at h1
      injection h1 with h1
      exact ⟨l, h1.symm⟩
  obtain ⟨l, rfl⟩ := h1
  subst h2
  unfold V.when at h3
  split at h3
  · unfold V.rd nprintV V.when at h3
    split at h3
    · exact ⟨l, _, upd_run h3⟩
    · injection h3 with h3; exact ⟨l, [], by rw [← h3]; simp⟩
  · injection h3 with h3; exact ⟨l, [], by rw [← h3]; simp⟩

theorem mem_addSet_left {l : List String} {x y : String} (h : y ∈ l) : y ∈ addSet l x := by
  unfold addSet
  split
  · exact h
  · exact List.mem_append_left _ h
theorem mem_addSet_self (l : List String) (x : String) : x ∈ addSet l x := by
  unfold addSet
  split
  · rename_i h; simpa using h
  · simp

theorem Found.self {ev : Event} (h : Emits env n ev) : Found env n ev := ⟨n, .self n, h⟩

/-- Restoring the definitions of the start. -/
theorem Steps.inScope {a : V} (ha : Steps env n a) : Steps env n (inScope a) := by
  intro s t h
  obtain ⟨u, h1, h2⟩ := seq_run (show (a ;; restoreDefs s.userDefs) s = .ok t from h)
  have h2 := upd_run h2
  subst h2
  have := ha s u h1
  exact { this with defs := fun _ h => h }

/-- Whatever happens, the visitor state changes as described. -/
theorem closed_steps (env : Env) (n : Node) :
    Closed env env.display n (fun _ => True) (fun v _ => Steps env n v) (Found env n) where
  skip := .skip
  seq ha hb := ha.seq hb
  excl _ := rfl
  feats _ := rfl
  init := rfl
  rdMods hf := .rd fun s => hf s s.findings rfl trivial
  raise _ := fun s t h => by cases h
  print _ _ _ _ _ _ _ := .print _ _ _ _ _ _
  flag hf := .flag hf
  module {m} l c hf := by
    refine .rd fun s => ?_
    split
    · exact .print _ _ _ _ _ _
    · split
      · exact .print _ _ _ _ _ _
      · rename_i hx
        refine .when fun _ => steps_upd fun s => ?_
        obtain ⟨d, hd⟩ := addLineCol_with { s with modules := s.modules ++ [m] } (.name m) l c
        rw [hd]
        exact { Step.refl s with modules := .one ⟨hf, by simpa using hx⟩ }
  member {m} l c hf := by
    refine .rd fun s => ?_
    split
    · exact .print _ _ _ _ _ _
    · split
      · exact .print _ _ _ _ _ _
      · rename_i hx
        refine .when fun hm => steps_upd fun s => ?_
        obtain ⟨d, hd⟩ := addLineCol_with { s with members := s.members ++ [m] } (.name m) l c
        rw [hd]
        exact { Step.refl s with members := .one ⟨hf, by simpa using hx, hm⟩ }
  kwarg {f k} l hf := by
    refine .rd fun s => ?_
    split
    · exact .print _ _ _ _ _ _
    · split
      · exact .print _ _ _ _ _ _
      · rename_i hx
        refine .when fun hm => steps_upd fun s => ?_
        exact { Step.refl s with kwargs := .one ⟨hf, by simpa using hx⟩ }
  deco {u} l hf := by
    refine .rd fun s => ?_
    split
    · exact .print _ _ _ _ _ _
    · split
      · exact .print _ _ _ _ _ _
      · rename_i hx
        refine .when fun hm => steps_upd fun s => ?_
        exact { Step.refl s with decos := .one ⟨hf, by simpa using hx, hm⟩ }
  strftime l hf := steps_upd fun s => { Step.refl s with strftime := .one hf }
  bytesDir l hf := steps_upd fun s => { Step.refl s with bytesDirs := .one hf }
  typecode l c hf := .rd fun s => .when fun _ => steps_upd fun s => { Step.refl s with typecodes := .one hf }
  errorHandler {c} l hf := by
    unfold addErrorHandler
    split
    · exact .print _ _ _ _ _ _
    · rename_i hx
      exact steps_upd fun s => { Step.refl s with codecsErr := .one ⟨hf, by simpa using hx⟩ }
  encoding {c} l hf := by
    unfold addEncoding
    split
    · exact .print _ _ _ _ _ _
    · rename_i hx
      exact steps_upd fun s => { Step.refl s with codecsEnc := .one ⟨hf, by simpa using hx⟩ }
  userDef _ := steps_upd fun s => { Step.refl s with defs := fun y hy => mem_addSet_left hy }
  nameRes _ := steps_upd fun s => { Step.refl s with }
  nameResType _ := steps_upd fun s => { Step.refl s with }
  moduleAs _ := steps_upd fun s => { Step.refl s with }
  importMem _ := steps_upd fun s => { Step.refl s with }
  callScope _ ha := .seq (.seq (steps_upd fun s => { Step.refl s with }) ha) (steps_upd fun s => { Step.refl s with })
  pop _ := steps_upd fun s => { Step.refl s with }
  yield hy := steps_upd fun s => { Step.refl s with yields := ⟨Nat.le_succ _, fun _ => hy⟩ }
  await hy := steps_upd fun s => { Step.refl s with awaits := ⟨Nat.le_succ _, fun _ => hy⟩ }
  ellipsis _ := steps_upd fun s => { Step.refl s with }
  gen m a _ ha := by
    intro s t h
    obtain ⟨u, h1, h2⟩ := seq_run h
    obtain ⟨v, h0, h1⟩ := seq_run h1
    obtain ⟨l, o, rfl⟩ := genEnter_run h0
    have h2 := upd_run h2
    subst h2
    have h3 := ha _ u h1
    have h0 : Step env n s { s with line := l, out := s.out ++ o } := { Step.refl s with out := ⟨o, rfl, fun _ _ => trivial⟩ }
    have h4 : Step env n { s with line := l, out := s.out ++ o } { u with depth := u.depth - 1 } :=
      { h3 with depth := by have := h3.depth; simp only at this ⊢; omega }
    exact h0.trans h4
  inScope ha := ha.inScope
  yieldScope {a _} ha := by
    intro s t h
    obtain ⟨u, h1, h2⟩ := seq_run (show (a ;; upd fun s' => { s' with seenYield := s.seenYield }) s = .ok t from h)
    have h2 := upd_run h2
    subst h2
    exact { ha s u h1 with yields := ⟨Nat.le_refl _, fun h => absurd h (Nat.lt_irrefl _)⟩ }
  asyncScope {a a' name} hn hf ha := by
    intro s t h
    obtain ⟨w, h1, h4⟩ := seq_run (show (a ;; found env .coroutines "coroutines (async)" (from3 5) (.at n.line) (some true) ;;
        (V.rd fun s' => when (decide (s.seenYield < s'.seenYield) && decide (s.seenAwait < s'.seenAwait))
          (found env .asyncGenerator "async generators (await and yield in same func)" (from3 6) (.at n.line) (some true))) ;;
        upd fun s' => { s' with seenAwait := s.seenAwait, seenYield := s.seenYield }) s = .ok t from h)
    have h4 := upd_run h4
    subst h4
    obtain ⟨v, h1, h3⟩ := seq_run h1
    have hv : Step env n s v := (ha.seq (Steps.seq (.flag hf) (.print _ _ _ _ _ _))) s v (by
      obtain ⟨u, h1, h2⟩ := seq_run h1
      show V.seq _ _ s = _
      unfold V.seq
      rw [h1]
      exact h2)
    have hw : Step env n v w := by
      refine Steps.when (fun hb => ?_) v w h3
      simp only [Bool.and_eq_true, decide_eq_true_eq] at hb
      obtain ⟨y, hy, hyk⟩ := hv.yields.2 hb.1
      obtain ⟨z, hz, hzk⟩ := hv.awaits.2 hb.2
      exact .seq (.flag (Found.self ⟨⟨name, hn⟩, ⟨y, hy, hyk⟩, z, hz, hzk⟩)) (.print _ _ _ _ _ _)
    exact { hv.trans hw with
      yields := ⟨Nat.le_refl _, fun h => absurd h (Nat.lt_irrefl _)⟩
      awaits := ⟨Nat.le_refl _, fun h => absurd h (Nat.lt_irrefl _)⟩ }
  compScope {a a' b} hn ha := by
    intro s t h
    obtain ⟨w, h1, h4⟩ := seq_run (show (a ;; (V.rd fun s' => when (decide (s.seenAwait < s'.seenAwait))
          (found env .awaitInComprehension "await in comprehensions" (from3 7))) ;; upd fun s' => { s' with seenAwait := s.seenAwait }) s = .ok t from h)
    have h4 := upd_run h4
    subst h4
    obtain ⟨v, h1, h3⟩ := seq_run h1
    have hv := ha s v h1
    have hw : Step env n v w := by
      refine Steps.when (fun hb => ?_) v w h3
      simp only [decide_eq_true_eq] at hb
      obtain ⟨z, hz, hzk⟩ := hv.awaits.2 hb
      exact .seq (.flag (Found.self ⟨⟨b, hn⟩, z, hz, hzk⟩)) (.print _ _ _ _ _ _)
    exact { hv.trans hw with awaits := ⟨Nat.le_refl _, fun h => absurd h (Nat.lt_irrefl _)⟩ }
  forScope {a b c _ _ _} _ ha hb hc := by
    intro s t h
    obtain ⟨v, h1, h2⟩ := seq_run h
    have h1 := upd_run h1
    subst h1
    obtain ⟨u, h1, h2⟩ := seq_run (show (a ;; b ;; c ;; (upd fun s => { s with seenFor := s.seenFor - 1 }) ;; restoreDefs s.userDefs) _ = .ok t from h2)
    have h2 := upd_run h2
    subst h2
    obtain ⟨v, h5, h2⟩ := seq_run h1
    have h2 := upd_run h2
    subst h2
    have h3 := (Steps.seq (ha.seq hb) hc) _ v h5
    exact { h3 with
      seenFor := by have := h3.seenFor; simp only at this ⊢; omega
      defs := fun _ h => h }
  whileScope _ ha := by
    intro s t h
    obtain ⟨u, h1, h2⟩ := seq_run h
    have h2 := upd_run h2
    subst h2
    obtain ⟨v, h0, h1⟩ := seq_run h1
    have h0 := upd_run h0
    subst h0
    have h3 := ha _ u h1
    exact { h3 with seenWhile := by have := h3.seenWhile; simp only at this ⊢; omega }
  tryScope _ ha hb := by
    intro s t h
    obtain ⟨u, h1, h2⟩ := seq_run h
    obtain ⟨v, h0, h1⟩ := seq_run h1
    have h1 := upd_run h1
    subst h1
    obtain ⟨w, h00, h0⟩ := seq_run h0
    have h00 := upd_run h00
    subst h00
    have h3 := ha _ v h0
    have h4 : Step env n s { v with tryFinally := v.tryFinally.drop 1 } := { h3 with tryFinally := by simp [h3.tryFinally] }
    exact h4.trans (hb _ t h2)

/-- **What a visit does.** -/
theorem visit_steps (env : Env) (n : Node) : Steps env n (visit env n) :=
  visit_closed (d := env.display) (I := fun _ _ => True) (Q := fun n v _ => Steps env n v) (A := Found env) (closed_steps env) (fun _ _ h => .self h)
    (fun _ _ hk _ _ h s t ht => (h s t ht).up hk) n
theorem genericVisit_steps (env : Env) (n : Node) : Steps env n (genericVisit env n) :=
  genericVisit_closed (d := env.display) (I := fun _ _ => True) (Q := fun n v _ => Steps env n v) (A := Found env) (closed_steps env) (fun _ _ h => .self h)
    (fun _ _ hk _ _ h s t ht => (h s t ht).up hk) n

end
end Vermin
