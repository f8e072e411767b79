import Verif.Lemmas.Certain
import Verif.Spec.Learnt
import Verif.Lemmas.Dict
/-
What the visitor knows and finds is due to the program.
-/
namespace Vermin
open Py V Spec

theorem emitsIn_mono {env : Env} {I J : S → Prop} (h : ∀ s, I s → J s) {n : Node} {ev : Event} (he : EmitsIn env I n ev) : EmitsIn env J n ev := by
  cases ev <;> simp only [EmitsIn] at he ⊢ <;> try exact he
  · exact constructIn_mono h he
  · rcases he with he | he | ⟨hk, s, s', full, x, h1, h2, h3⟩
    · exact .inl he
    · exact .inr (.inl he)
    · exact .inr (.inr ⟨hk, s, s', full, x, h _ h1, h _ h2, h3⟩)
  · rcases he with he | he | he | ⟨hk, s, s', full, h1, h2, h3⟩ | he
    · exact .inl he
    · exact .inr (.inl he)
    · exact .inr (.inr (.inl he))
    · exact .inr (.inr (.inr (.inl ⟨hk, s, s', full, h _ h1, h _ h2, h3⟩)))
    · exact .inr (.inr (.inr (.inr he)))
  · obtain ⟨hk, s, g, h1, h2⟩ := he
    exact ⟨hk, s, g, h _ h1, h2⟩
  · obtain ⟨hk, d, hd, hl, s, x, h1, h2⟩ := he
    exact ⟨hk, d, hd, hl, s, x, h _ h1, h2⟩
  · obtain ⟨hk, ha, he⟩ := he
    exact ⟨hk, ha, he.imp id fun ⟨s, h1, h2⟩ => ⟨s, h _ h1, h2⟩⟩
  · obtain ⟨hk, s, f, i, h1, h2⟩ := he
    exact ⟨hk, s, f, i, h _ h1, h2⟩
  · obtain ⟨hk, s, f, i, h1, h2⟩ := he
    exact ⟨hk, s, f, i, h _ h1, h2⟩
  · rcases he with ⟨v, s, h1, h2, h3⟩ | he
    · exact .inl ⟨v, s, h1, h _ h2, h3⟩
    · obtain ⟨h1, h2, h3, it, e, s, h4, h5, h6, h7⟩ := he
      exact .inr ⟨h1, h2, h3, it, e, s, h4, h5, h _ h6, h7⟩
  · obtain ⟨s, h1, h2⟩ := he
    exact ⟨s, h _ h1, h2⟩

theorem emits_any {env : Env} {I : S → Prop} {n : Node} {ev : Event} (he : EmitsIn env I n ev) : Emits env n ev := emitsIn_mono (fun _ _ => trivial) he

/-- Facts about the names of imports, the modules that names are imported from, and the values and types of variables. -/
abbrev Facts := Table → Table → Table → Types → Prop

/-- No part of the program changes the facts. -/
structure Keeps (env : Env) (p : Node) (P : Facts) : Prop where
  rename : ∀ n x y ms os vs ts, In n p → Emits env n (.rename x y) → P ms os vs ts → P (Dict.set ms x y) os vs ts
  origin : ∀ n x y ms os vs ts, In n p → Emits env n (.origin x y) → P ms os vs ts → P ms (Dict.set os x y) vs ts
  value : ∀ n x y ms os vs ts, In n p → EmitsIn env (RenamesFrom env p) n (.value x y) → P ms os vs ts → P ms os (Dict.set vs x y) ts
  type : ∀ n x y ms os vs ts, In n p → Emits env n (.type x y) → P ms os vs ts → P ms os vs (Dict.set ts x (addSet ((Dict.get? ts x).getD []) y))

/-- What may be known, and what is. -/
structure Known (env : Env) (P : Facts) (p n : Node) (s : S) : Prop extends Learnt env p n s where
  known : P s.moduleAs s.importMemMod s.nameRes s.nameResType

/-- Only what is due to the program `p` is learnt and found; the calls around are left. -/
def Traced (env : Env) (P : Facts) (p n : Node) (v : V) : Prop :=
  ∀ s t, Known env P p n s → v s = .ok t → Known env P p n t ∧ (Traces env p s → Traces env p t) ∧ t.fnStack <+: s.fnStack

section
variable {env : Env} {P : Facts} {p n : Node}

theorem Traced.skip : Traced env P p n skip := fun s t hl h => by injection h with h; subst h; exact ⟨hl, id, List.prefix_refl _⟩
theorem Traced.seq {a b : V} (ha : Traced env P p n a) (hb : Traced env P p n b) : Traced env P p n (a ;; b) := by
  intro s t hl h
  obtain ⟨u, h1, h2⟩ := seq_run h
  obtain ⟨hl1, ht1, hp1⟩ := ha s u hl h1
  obtain ⟨hl2, ht2, hp2⟩ := hb u t hl1 h2
  exact ⟨hl2, ht2 ∘ ht1, hp2.trans hp1⟩
theorem Traced.rd {f : S → V} (hf : ∀ s, Known env P p n s → Traced env P p n (f s)) : Traced env P p n (rd f) := fun s t hl h => hf s hl s t hl h
theorem Traced.when {c : Bool} {a : V} (ha : Traced env P p n a) : Traced env P p n (when c a) := by
  cases c with
  | true => exact ha
  | false => exact .skip
theorem traced_upd {f : S → S} (hl : ∀ s, Known env P p n s → Known env P p n (f s))
    (ht : ∀ s, Known env P p n s → Traces env p s → Traces env p (f s)) (hs : ∀ s, (f s).fnStack <+: s.fnStack) : Traced env P p n (upd f) := by
  intro s t h1 h
  rw [upd_run h]
  exact ⟨hl s h1, ht s h1, hs s⟩
/-- Changes to the rest of the state -/
theorem traced_other {f : S → S} (hl : ∀ s, Known env P p n s → Known env P p n (f s)) (ht : ∀ s, Traces env p s → Traces env p (f s))
    (hs : ∀ s, (f s).fnStack = s.fnStack) : Traced env P p n (upd f) :=
  traced_upd hl (fun s _ => ht s) fun s => by rw [hs s]; exact List.prefix_refl _
theorem Traced.print (l msg ent line vs pl) : Traced env P p n (verbosePrint env l msg ent line vs pl) := by
  intro s t hl h
  obtain ⟨o, rfl⟩ := verbosePrint_run h
  exact ⟨{ hl with }, fun ht => { ht with }, List.prefix_refl _⟩
theorem Traced.flag (f : Flag) (hf : Dependent f = true → EmitsIn env (Learnt env p n) n (.flag f) := by exact fun h => absurd h (by decide)) :
    Traced env P p n (setFlag f) := by
  refine traced_upd (fun s h => ?_) (fun s hk h => ?_) fun s => ?_ <;> unfold S.set <;> split
  · exact h
  · exact { h with }
  · exact h
  · refine { h with flags := fun g hg hd => ?_ }
    rcases List.mem_append.mp hg with hg | hg
    · exact h.flags g hg hd
    · rw [List.mem_singleton.mp hg] at hd ⊢
      exact ⟨n, hk.here, hf hd⟩
  · exact List.prefix_refl _
  · exact List.prefix_refl _
theorem Traced.inScope {a : V} (ha : Traced env P p n a) : Traced env P p n (inScope a) := by
  intro s t hl h
  obtain ⟨u, h1, h2⟩ := seq_run (show (a ;; restoreDefs s.userDefs) s = .ok t from h)
  obtain ⟨hl1, ht1, hp1⟩ := ha s u hl h1
  rw [upd_run h2]
  exact ⟨{ hl1 with defs := hl.defs }, fun ht => { ht1 ht with }, hp1⟩

/-- What the node may learn or find there. -/
abbrev At (env : Env) (p n : Node) (ev : Event) : Prop := EmitsIn env (Learnt env p n) n ev

theorem addSet_nodup {l : List String} {x : String} (h : l.Nodup) : (addSet l x).Nodup := by
  unfold addSet
  split
  · exact h
  · rename_i hx
    refine List.nodup_append.mpr ⟨h, List.pairwise_singleton .., ?_⟩
    rintro a ha b hb rfl
    rw [List.mem_singleton.mp hb] at ha
    exact hx (List.contains_iff_mem.mpr ha)
theorem mem_snoc {α : Type} {P : α → Prop} {l : List α} {x : α} (hl : ∀ y ∈ l, P y) (hx : P x) : ∀ y ∈ l ++ [x], P y := fun y hy => by
  rcases List.mem_append.mp hy with hy | hy
  · exact hl y hy
  · rw [List.mem_singleton.mp hy]; exact hx

theorem moduleIn_of {m : String} (hn : In n p) (h : At env p n (.module m)) : ModuleIn env p m := by
  rcases h with ⟨hk, a, ha, hm⟩ | ⟨x, hk, rfl | ⟨a, ha, y, hy, hs, rfl⟩⟩ | ⟨⟨a, hk⟩, s, s', full, x, h1, h2, h3, rfl, h5, h6⟩
  · exact .import hn hk ha hm
  · exact .source hn hk
  · exact .name hn hk ha hy hs
  · exact .attr hn hk h1.renames h3 h5 (h2.modules x h6)

theorem valueIn_of {x y : String} (hn : In n p) (h : At env p n (.value x y)) : ValueIn env p x y := by
  rcases h with ⟨v, s, h1, h2, h3⟩ | ⟨h1, rfl, ⟨t, c, h2, h3⟩, it, e, s, h4, h5, h6, h7⟩
  · exact .assign hn h1 h2.renames h3
  · exact .loop hn h1 h2 h3 h4 h5 h6.values h7

theorem Spec.ValueIn.emits {x y : String} (h : ValueIn env p x y) : ∃ n, In n p ∧ EmitsIn env (RenamesFrom env p) n (.value x y) := by
  cases h with
  | assign h1 h2 h3 h4 => exact ⟨_, h1, .inl ⟨_, _, h2, h3, h4⟩⟩
  | @loop n t it e x c vs h1 h2 h3 h4 h5 h6 _ h8 =>
    exact ⟨_, h1, .inr ⟨h2, rfl, ⟨t, c, h3, h4⟩, it, e, { S.init with nameRes := vs }, h5, h6, nofun, h8⟩⟩

theorem learnt_define {x : String} {s : S} (hl : Known env P p n s) (hf : At env p n (.define x)) : Known env P p n { s with userDefs := addSet s.userDefs x } := by
  refine { hl with defs := ?_ }
  intro y hy
  replace hy : y ∈ addSet s.userDefs x := hy
  unfold addSet at hy
  split at hy
  · exact hl.defs y hy
  · exact mem_snoc hl.defs ⟨n, hl.here, hf⟩ y hy

theorem learnt_value (hP : Keeps env p P) {x y : String} {s : S} (hl : Known env P p n s) (hf : At env p n (.value x y)) : Known env P p n { s with nameRes := Dict.set s.nameRes x y } := by
  refine { hl with values := ?_, known := hP.value _ _ _ _ _ _ _ hl.here (emitsIn_mono (fun _ h => h.renames) hf) hl.known }
  intro x' y' h
  replace h : Dict.get? (Dict.set s.nameRes x y) x' = some y' := h
  rw [Dict.get?_set] at h
  split at h
  · rename_i he
    subst he; injection h with h; subst h
    exact valueIn_of hl.here hf
  · exact hl.values x' y' h

theorem learnt_type (hP : Keeps env p P) {x y : String} {s : S} (hl : Known env P p n s) (hf : At env p n (.type x y)) :
    Known env P p n { s with nameResType := Dict.set s.nameResType x (addSet ((Dict.get? s.nameResType x).getD []) y) } := by
  refine { hl with types := ?_, once := ?_, known := hP.type _ _ _ _ _ _ _ hl.here (emits_any hf) hl.known }
  rotate_left
  · intro x' ys h
    replace h : Dict.get? (Dict.set s.nameResType x (addSet ((Dict.get? s.nameResType x).getD []) y)) x' = some ys := h
    rw [Dict.get?_set] at h
    split at h
    · injection h with h; subst h
      refine addSet_nodup ?_
      cases hg : Dict.get? s.nameResType x with
      | none => exact .nil
      | some zs => exact hl.once x zs hg
    · exact hl.once x' ys h
  intro x' ys y' h hy
  replace h : Dict.get? (Dict.set s.nameResType x (addSet ((Dict.get? s.nameResType x).getD []) y)) x' = some ys := h
  rw [Dict.get?_set] at h
  split at h
  · rename_i he
    subst he; injection h with h; subst h
    have hold : ∀ z ∈ (Dict.get? s.nameResType x).getD [], ∃ n, In n p ∧ Emits env n (.type x z) := by
      intro z hz
      cases hg : Dict.get? s.nameResType x with
      | none => rw [hg] at hz; cases hz
      | some zs => rw [hg] at hz; exact hl.types x zs z hg hz
    unfold addSet at hy
    split at hy
    · exact hold y' hy
    · exact mem_snoc hold ⟨n, hl.here, emits_any hf⟩ y' hy
  · exact hl.types x' ys y' h hy

theorem learnt_rename (hP : Keeps env p P) {x y : String} {s : S} (hl : Known env P p n s) (hf : At env p n (.rename x y)) : Known env P p n { s with moduleAs := Dict.set s.moduleAs x y } := by
  refine { hl with renames := ?_, known := hP.rename _ _ _ _ _ _ _ hl.here (emits_any hf) hl.known }
  intro x' y' h
  replace h : Dict.get? (Dict.set s.moduleAs x y) x' = some y' := h
  rw [Dict.get?_set] at h
  split at h
  · rename_i he
    subst he; injection h with h; subst h
    exact ⟨n, hl.here, emits_any hf⟩
  · exact hl.renames x' y' h

theorem learnt_origin (hP : Keeps env p P) {x y : String} {s : S} (hl : Known env P p n s) (hf : At env p n (.origin x y)) : Known env P p n { s with importMemMod := Dict.set s.importMemMod x y } := by
  refine { hl with origins := ?_, known := hP.origin _ _ _ _ _ _ _ hl.here (emits_any hf) hl.known }
  intro x' y' h
  replace h : Dict.get? (Dict.set s.importMemMod x y) x' = some y' := h
  rw [Dict.get?_set] at h
  split at h
  · rename_i he
    subst he; injection h with h; subst h
    exact ⟨n, hl.here, emits_any hf⟩
  · exact hl.origins x' y' h

/-- The state after `pushFn x`. -/
def S.push (s : S) (x : String) : S := { s with functionName := some x, fnStack := s.fnStack ++ [x] }

theorem learnt_push {x : String} {s : S} (hl : Known env P p n s) (hf : At env p n (.call x)) : Known env P p n (s.push x) :=
  { hl with calls := mem_snoc hl.calls ⟨n, hl.here, .self n, emitsIn_mono (fun _ h => h.renames) hf⟩ }

theorem closed_traced (env : Env) (P : Facts) (p n : Node) (hP : Keeps env p P) :
    Closed env env.display n (Known env P p n) (fun v _ => Traced env P p n v) (At env p n) where
  skip := .skip
  seq ha hb := ha.seq hb
  excl _ := rfl
  feats _ := rfl
  init := rfl
  rdMods hf := .rd fun s hl => hf s s.findings rfl hl
  raise _ := fun s t _ h => by cases h
  print _ _ _ _ _ _ _ := .print _ _ _ _ _ _
  flag h := .flag _ fun _ => h
  module {m} l c hf := by
    refine .rd fun s _ => ?_
    split
    · exact .print _ _ _ _ _ _
    · split
      · exact .print _ _ _ _ _ _
      · refine .when (traced_upd (fun s hl => ?_) (fun s hl ht => ?_) fun s => ?_) <;>
          obtain ⟨d, hd⟩ := addLineCol_with { s with modules := s.modules ++ [m] } (.name m) l c <;> rw [hd]
        · exact { hl with modules := mem_snoc hl.modules (moduleIn_of hl.here hf) }
        · exact { ht with modules := mem_snoc ht.modules ⟨n, hl.here, hf⟩ }
        · exact List.prefix_refl _
  member {m} l c hf := by
    refine .rd fun s _ => ?_
    split
    · exact .print _ _ _ _ _ _
    · split
      · exact .print _ _ _ _ _ _
      · refine .when (traced_upd (fun s hl => ?_) (fun s hl ht => ?_) fun s => ?_) <;>
          obtain ⟨d, hd⟩ := addLineCol_with { s with members := s.members ++ [m] } (.name m) l c <;> rw [hd]
        · exact { hl with }
        · exact { ht with members := mem_snoc ht.members ⟨n, hl.here, hf⟩ }
        · exact List.prefix_refl _
  kwarg {f k} l hf := by
    refine .rd fun s _ => ?_
    split
    · exact .print _ _ _ _ _ _
    · split
      · exact .print _ _ _ _ _ _
      · exact .when (traced_upd (fun s hl => { hl with }) (fun s hl ht => { ht with kwargs := mem_snoc ht.kwargs ⟨n, hl.here, hf⟩ }) fun s => List.prefix_refl _)
  deco {u} l hf := by
    refine .rd fun s _ => ?_
    split
    · exact .print _ _ _ _ _ _
    · split
      · exact .print _ _ _ _ _ _
      · exact .when (traced_upd (fun s hl => { hl with }) (fun s hl ht => { ht with decos := mem_snoc ht.decos ⟨n, hl.here, hf⟩ }) fun s => List.prefix_refl _)
  strftime l _ := traced_other (fun _ h => { h with }) (fun _ h => { h with }) fun _ => rfl
  bytesDir l _ := traced_other (fun _ h => { h with }) (fun _ h => { h with }) fun _ => rfl
  typecode l c hf := .rd fun s _ => .when (traced_upd (fun s hl => { hl with })
    (fun s hl ht => { ht with typecodes := mem_snoc ht.typecodes ⟨n, hl.here, hf⟩ }) fun s => List.prefix_refl _)
  errorHandler {c} l hf := by
    unfold addErrorHandler
    split
    · exact .print _ _ _ _ _ _
    · exact traced_upd (fun s hl => { hl with }) (fun s hl ht => { ht with codecsErr := mem_snoc ht.codecsErr ⟨n, hl.here, hf⟩ }) fun s => List.prefix_refl _
  encoding {c} l hf := by
    unfold addEncoding
    split
    · exact .print _ _ _ _ _ _
    · exact traced_upd (fun s hl => { hl with }) (fun s hl ht => { ht with codecsEnc := mem_snoc ht.codecsEnc ⟨n, hl.here, hf⟩ }) fun s => List.prefix_refl _
  userDef hf := traced_other (fun _ hl => learnt_define hl hf) (fun _ h => { h with }) fun _ => rfl
  nameRes hf := traced_other (fun _ hl => learnt_value hP hl hf) (fun _ h => { h with }) fun _ => rfl
  nameResType hf := traced_other (fun _ hl => learnt_type hP hl hf) (fun _ h => { h with }) fun _ => rfl
  moduleAs hf := traced_other (fun _ hl => learnt_rename hP hl hf) (fun _ h => { h with }) fun _ => rfl
  importMem hf := traced_other (fun _ hl => learnt_origin hP hl hf) (fun _ h => { h with }) fun _ => rfl
  callScope {x a _} hf ha := by
    intro s t hl h
    obtain ⟨v, h1, h2⟩ := seq_run h
    obtain ⟨u, h0, h1⟩ := seq_run h1
    have h0 := upd_run h0
    subst h0
    have hl0 := learnt_push hl hf
    obtain ⟨hl1, ht1, hp1⟩ := ha _ v hl0 h1
    rw [upd_run h2]
    refine ⟨{ hl1 with calls := fun f hf => hl1.calls f (List.dropLast_subset _ hf) }, fun ht => { ht1 { ht with } with }, ?_⟩
    show v.fnStack.dropLast <+: s.fnStack
    obtain ⟨r, hr⟩ := hp1
    replace hr : v.fnStack ++ r = s.fnStack ++ [x] := hr
    cases hr' : r.reverse with
    | nil =>
      rw [List.reverse_eq_nil_iff.mp hr', List.append_nil] at hr
      rw [hr]; simp
    | cons y ys =>
      have : r = ys.reverse ++ [y] := by rw [← List.reverse_reverse r, hr']; simp
      rw [this, ← List.append_assoc] at hr
      have h3 := (List.append_inj' hr rfl).1
      rw [← h3]
      exact (List.dropLast_prefix _).trans (List.prefix_append _ _)
  pop _ := traced_upd (fun s hl => { hl with calls := fun f hf => hl.calls f (List.dropLast_subset _ hf) }) (fun s _ ht => { ht with })
    fun s => List.dropLast_prefix _
  yield hy := traced_other (fun _ h => { h with }) (fun _ h => { h with }) fun _ => rfl
  await hy := traced_other (fun _ h => { h with }) (fun _ h => { h with }) fun _ => rfl
  ellipsis hu := traced_other (fun _ h => { h with slices := mem_snoc h.slices ⟨n, h.here, emits_any hu⟩ }) (fun _ h => { h with }) fun _ => rfl
  gen m a _ ha := by
    refine .seq (.seq (fun s t hl h => ?_) ha) (traced_other (fun _ h => { h with }) (fun _ h => { h with }) fun _ => rfl)
    obtain ⟨l, o, rfl⟩ := genEnter_run h
    exact ⟨{ hl with }, fun ht => { ht with }, List.prefix_refl _⟩
  inScope ha := ha.inScope
  yieldScope {a _} ha := .rd fun s _ => ha.seq (traced_other (fun _ h => { h with }) (fun _ h => { h with }) fun _ => rfl)
  asyncScope {a a' name} hn hf ha := .rd fun s _ => .seq (.seq (.seq ha (.seq (.flag _) (.print _ _ _ _ _ _)))
    (.rd fun s' _ => .when (.seq (.flag _) (.print _ _ _ _ _ _)))) (traced_other (fun _ h => { h with }) (fun _ h => { h with }) fun _ => rfl)
  compScope {a a' b} hn ha := .rd fun s _ => .seq (.seq ha
    (.rd fun s' _ => .when (.seq (.flag _) (.print _ _ _ _ _ _)))) (traced_other (fun _ h => { h with }) (fun _ h => { h with }) fun _ => rfl)
  forScope {a b c _ _ _} _ ha hb hc := .seq (traced_other (fun _ h => { h with }) (fun _ h => { h with }) fun _ => rfl)
    (.inScope (.seq (.seq (.seq ha hb) hc) (traced_other (fun _ h => { h with }) (fun _ h => { h with }) fun _ => rfl)))
  whileScope _ ha := .seq (.seq (traced_other (fun _ h => { h with }) (fun _ h => { h with }) fun _ => rfl) ha)
    (traced_other (fun _ h => { h with }) (fun _ h => { h with }) fun _ => rfl)
  tryScope _ ha hb := .seq (.seq (.seq (traced_other (fun _ h => { h with }) (fun _ h => { h with }) fun _ => rfl) ha)
    (traced_other (fun _ h => { h with }) (fun _ h => { h with }) fun _ => rfl)) hb

theorem learnt_down {k : Node} (hk : k ∈ n.kids) {s : S} (hl : Known env P p n s) : Known env P p k s :=
  { hl with
    here := In.trans (.kid hk (.self k)) hl.here
    calls := fun f hf => by
      obtain ⟨c, h1, h2, h3⟩ := hl.calls f hf
      exact ⟨c, h1, In.trans (.kid hk (.self k)) h2, h3⟩ }

theorem traced_up {k : Node} (hk : k ∈ n.kids) {v : V} (h : Traced env P p k v) : Traced env P p n v := by
  intro s t hl hv
  obtain ⟨h1, h2, h3⟩ := h s t (learnt_down hk hl) hv
  exact ⟨{ h1 with here := hl.here, calls := fun f hf => hl.calls f (h3.subset hf) }, h2, h3⟩

theorem visit_traced (env : Env) (P : Facts) (p n : Node) (hP : Keeps env p P) : Traced env P p n (visit env n) :=
  visit_closed (d := env.display) (I := Known env P p) (Q := fun n v _ => Traced env P p n v) (A := At env p) (fun n => closed_traced env P p n hP) (fun _ _ h => emitsIn_mono (fun _ h => h.toLearnt) h)
    (fun _ _ hk _ _ h => traced_up hk h) n
theorem kids_traced (env : Env) (P : Facts) (p n : Node) (hP : Keeps env p P) : Kids n (fun v _ => Traced env P p n v) (visitKids env n.kids) (visitKids env n.kids) :=
  visitKids_closed (d := env.display) (I := Known env P p) (Q := fun n v _ => Traced env P p n v) (A := At env p) (fun n => closed_traced env P p n hP) (fun _ _ h => emitsIn_mono (fun _ h => h.toLearnt) h)
    (fun _ _ hk _ _ h => traced_up hk h) n n.kids fun _ h => h

/-! ### What is known when a part is visited -/

/-- Actions that do the same, given what may be known. -/
def SameNames (env : Env) (P : Facts) (p n : Node) (v v' : V) : Prop := Traced env P p n v ∧ ∀ s, Known env P p n s → v s = v' s

theorem SameNames.refl {v : V} (h : Traced env P p n v) : SameNames env P p n v v := ⟨h, fun _ _ => rfl⟩
theorem seq_same {a a' b b' : V} {s : S} (ha : a s = a' s) (hb : ∀ u, a s = .ok u → b u = b' u) : (a ;; b) s = (a' ;; b') s := by
  show (match a s with | .ok u => b u | .error e => .error e) = (match a' s with | .ok u => b' u | .error e => .error e)
  rw [← ha]
  cases h : a s with
  | ok u => exact hb u h
  | error e => rfl
theorem SameNames.seq {a a' b b' : V} (ha : SameNames env P p n a a') (hb : SameNames env P p n b b') : SameNames env P p n (a ;; b) (a' ;; b') :=
  ⟨ha.1.seq hb.1, fun s hl => seq_same (ha.2 s hl) fun u h => hb.2 u (ha.1 s u hl h).1⟩
theorem SameNames.rd {f f' : S → V} (hf : ∀ s, Known env P p n s → SameNames env P p n (f s) (f' s)) : SameNames env P p n (rd f) (rd f') :=
  ⟨.rd fun s hl => (hf s hl).1, fun s hl => (hf s hl).2 s hl⟩
/-- The same, before something that does not matter. -/
theorem SameNames.upd {f : S → S} (h : Traced env P p n (V.upd f)) : SameNames env P p n (V.upd f) (V.upd f) := .refl h
theorem SameNames.inScope {a a' : V} (ha : SameNames env P p n a a') : SameNames env P p n (inScope a) (inScope a') :=
  ⟨ha.1.inScope, fun s hl => seq_same (ha.2 s hl) fun _ _ => rfl⟩

theorem closed_same (env : Env) (P : Facts) (p n : Node) (hP : Keeps env p P) : Closed env env.display n (Known env P p n) (SameNames env P p n) (At env p n) where
  skip := .refl .skip
  seq ha hb := ha.seq hb
  excl _ := rfl
  feats _ := rfl
  init := rfl
  rdMods hf := .rd fun s hl => hf s s.findings rfl hl
  raise h := .refl ((closed_traced env P p n hP).raise h)
  print _ _ _ _ _ _ _ := .refl (.print _ _ _ _ _ _)
  flag h := .refl (.flag _ fun _ => h)
  module l c hf := .refl ((closed_traced env P p n hP).module l c hf)
  member l c hf := .refl ((closed_traced env P p n hP).member l c hf)
  kwarg l hf := .refl ((closed_traced env P p n hP).kwarg l hf)
  deco l hf := .refl ((closed_traced env P p n hP).deco l hf)
  strftime l hf := .refl ((closed_traced env P p n hP).strftime l hf)
  bytesDir l hf := .refl ((closed_traced env P p n hP).bytesDir l hf)
  typecode l c hf := .refl ((closed_traced env P p n hP).typecode l c hf)
  errorHandler l hf := .refl ((closed_traced env P p n hP).errorHandler l hf)
  encoding l hf := .refl ((closed_traced env P p n hP).encoding l hf)
  userDef hf := .refl ((closed_traced env P p n hP).userDef hf)
  nameRes hf := .refl ((closed_traced env P p n hP).nameRes hf)
  nameResType hf := .refl ((closed_traced env P p n hP).nameResType hf)
  moduleAs hf := .refl ((closed_traced env P p n hP).moduleAs hf)
  importMem hf := .refl ((closed_traced env P p n hP).importMem hf)
  callScope {x a a'} hf ha := ⟨(closed_traced env P p n hP).callScope (a' := a) hf ha.1, fun s hl => seq_same (seq_same rfl fun u hu => by
    have hu := upd_run hu
    subst hu
    exact ha.2 _ (learnt_push hl hf)) fun _ _ => rfl⟩
  pop hu := .refl ((closed_traced env P p n hP).pop hu)
  yield hy := .refl ((closed_traced env P p n hP).yield hy)
  await hy := .refl ((closed_traced env P p n hP).await hy)
  ellipsis hu := .refl ((closed_traced env P p n hP).ellipsis hu)
  gen m a _ ha := by
    have h1 : Traced env P p n (genEnter env m) := fun s t hl h => by
      obtain ⟨l, o, rfl⟩ := genEnter_run h
      exact ⟨{ hl with }, fun ht => { ht with }, List.prefix_refl _⟩
    exact .seq (.seq (.refl h1) ha) (.refl (traced_other (fun _ h => { h with }) (fun _ h => { h with }) fun _ => rfl))
  inScope ha := ha.inScope
  yieldScope {a _} ha := .rd fun s _ => ha.seq (.refl (traced_other (fun _ h => { h with }) (fun _ h => { h with }) fun _ => rfl))
  asyncScope {a a' name} hn hf ha := .rd fun s _ => .seq (.seq (.seq ha (.refl (.seq (.flag _) (.print _ _ _ _ _ _))))
    (.refl (.rd fun s' _ => .when (.seq (.flag _) (.print _ _ _ _ _ _))))) (.refl (traced_other (fun _ h => { h with }) (fun _ h => { h with }) fun _ => rfl))
  compScope {a a' b} hn ha := .rd fun s _ => .seq (.seq ha
    (.refl (.rd fun s' _ => .when (.seq (.flag _) (.print _ _ _ _ _ _))))) (.refl (traced_other (fun _ h => { h with }) (fun _ h => { h with }) fun _ => rfl))
  forScope {a b c _ _ _} _ ha hb hc := .seq (.refl (traced_other (fun _ h => { h with }) (fun _ h => { h with }) fun _ => rfl))
    (.inScope (.seq (.seq (.seq ha hb) hc) (.refl (traced_other (fun _ h => { h with }) (fun _ h => { h with }) fun _ => rfl))))
  whileScope _ ha := .seq (.seq (.refl (traced_other (fun _ h => { h with }) (fun _ h => { h with }) fun _ => rfl)) ha)
    (.refl (traced_other (fun _ h => { h with }) (fun _ h => { h with }) fun _ => rfl))
  tryScope _ ha hb := .seq (.seq (.seq (.refl (traced_other (fun _ h => { h with }) (fun _ h => { h with }) fun _ => rfl)) ha)
    (.refl (traced_other (fun _ h => { h with }) (fun _ h => { h with }) fun _ => rfl))) hb

open Classical in
/-- The visit of a child, unless something else is known than may be. -/
noncomputable def checked (env : Env) (P : Facts) (p k : Node) (v : V) : V := fun s => if Known env P p k s then v s else .error .typeError

theorem checked_run {k : Node} {v : V} {s t : S} (h : checked env P p k v s = .ok t) : Known env P p k s ∧ v s = .ok t := by
  unfold checked at h
  split at h
  · exact ⟨by assumption, h⟩
  · cases h
theorem checked_same {k : Node} (hk : k ∈ n.kids) {v : V} (h : Traced env P p n v) : SameNames env P p n v (checked env P p k v) :=
  ⟨h, fun s hl => by unfold checked; rw [if_pos (learnt_down hk hl)]⟩

/-- The children with checks. -/
noncomputable def checkedKids (env : Env) (P : Facts) (p : Node) (cs : List Child) : List Child :=
  cs.map fun c => { c with visit := checked env P p c.node c.visit }

theorem kids_same (env : Env) (P : Facts) (p n : Node) (hP : Keeps env p P) : Kids n (SameNames env P p n) (visitKids env n.kids) (checkedKids env P p (visitKids env n.kids)) := by
  have hk := kids_traced env P p n hP
  have hm : ∀ c ∈ visitKids env n.kids, c.node ∈ n.kids := fun c hc => (of_mem_visitKids hc).1
  revert hk hm
  generalize visitKids env n.kids = cs
  intro hk hm
  induction cs with
  | nil => exact .nil
  | cons c cs ih =>
    cases hk with
    | cons _ hv hg hk => exact .cons rfl (checked_same (hm c (.head _)) hv) (fun h => .refl (hg h)) (ih hk fun c hc => hm c (.tail _ hc))

theorem checkedKids_growing (env : Env) (P : Facts) (p n : Node) :
    Kids n (fun v _ => Growing v) (checkedKids env P p (visitKids env n.kids)) (checkedKids env P p (visitKids env n.kids)) := by
  have hk := kids_growing env n
  revert hk
  show Kids n (fun v _ => Growing v) (visitKids env n.kids) (visitKids env n.kids) → _
  generalize visitKids env n.kids = cs
  intro hk
  induction cs with
  | nil => exact .nil
  | cons c cs ih =>
    cases hk with
    | cons _ hv hg hk => exact .cons rfl (fun s t h => hv s t (checked_run h).2) hg (ih hk)

/-- Running `v` at `n` runs the visit of `k`, with what may be known there. -/
theorem kid_learnt (hP : Keeps env p P) {R : S → S → Prop} (hR : Rel R) {k : Node} (hv : Visits env n k) (hs : Scoped n.kind → ∀ s d, R s { s with userDefs := d })
    (hlp : IsLoop n.kind → ∀ s f w, R s { s with seenFor := f, seenWhile := w }) (hct : Counted n.kind → ∀ s y w, R s { s with seenYield := y, seenAwait := w })
    {s t : S} (hl : Known env P p n s) (h : visit env n s = .ok t) :
    ∃ a b, R s a ∧ Known env P p k a ∧ visit env k a = .ok b ∧ R b t := by
  rw [visitMk env n] at h
  have he := ((closed_same env P p n hP).visitAlg (fun _ h => emitsIn_mono (fun _ h => h.toLearnt) h) ((closed_same env P p n hP).kin (kids_same env P p n hP))).2 s hl
  rw [he] at h
  have hm : (⟨k, checked env P p k (visit env k), genericVisit env k⟩ : Child) ∈ checkedKids env P p (visitKids env n.kids) :=
    List.mem_map.mpr ⟨_, mem_visitKids hv.1, rfl⟩
  obtain ⟨a, b, h1, h2, h3⟩ := alg_runs hR hm (checkedKids_growing env P p n) hv.2.1 hv.2.2.1 hv.2.2.2 hs hlp hct s t h
  obtain ⟨h4, h5⟩ := checked_run h2
  exact ⟨a, b, h1, h4, h5, h3⟩

/-- Visiting `n` visits every part that is looked at, with what may be known there. -/
theorem reach_learnt (hP : Keeps env p P) {m : Node} (h : Reach env m n) {s t : S} (hl : Known env P p n s) (hv : visit env n s = .ok t) :
    ∃ a b, More s a ∧ Known env P p m a ∧ visit env m a = .ok b ∧ More b t := by
  induction h generalizing s t with
  | self n => exact ⟨s, t, Rel.more.grow (.refl s), hl, hv, Rel.more.grow (.refl t)⟩
  | kid hk _ ih =>
    obtain ⟨a, b, h1, h2, h3, h4⟩ := kid_learnt hP Rel.more hk (fun _ => more_defs) (fun _ => more_loops) (fun _ => more_counts) hl hv
    obtain ⟨a', b', h1', h2', h3', h4'⟩ := ih h2 h3
    exact ⟨a', b', Rel.more.trans h1 h1', h2', h3', Rel.more.trans h4' h4⟩

theorem learnt_init (env : Env) (p : Node) : Learnt env p p S.init :=
  ⟨.self p, nofun, nofun, nofun, nofun, nofun, nofun, nofun, nofun, nofun⟩
/-- Nothing in particular -/
def Anything : Facts := fun _ _ _ _ => True
theorem keeps_anything (env : Env) (p : Node) : Keeps env p Anything := 
  ⟨fun _ _ _ _ _ _ _ _ _ _ => trivial, fun _ _ _ _ _ _ _ _ _ _ => trivial, fun _ _ _ _ _ _ _ _ _ _ => trivial, fun _ _ _ _ _ _ _ _ _ _ => trivial⟩
theorem traces_init (env : Env) (p : Node) : Traces env p S.init := ⟨nofun, nofun, nofun, nofun, nofun, nofun, nofun, nofun⟩

end
end Vermin
