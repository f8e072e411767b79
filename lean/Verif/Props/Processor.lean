import Verif.Model.Processor
import Verif.Props.Versions
import Verif.Lemmas.Sort
import Verif.Lemmas.Dict
/-
C17-C19, C21: processing several files.
-/
namespace Vermin.Props
open Vermin Vermin.Py Vermin.Spec

/-! ### C18: delivery order of `imap` -/

/-- Items finished in a run. -/
def doneOf (es : List IEvent) : List Nat := es.filterMap fun
  | .done i => some i
  | .next => none

/-- Invariant of the reorder buffer; `A` are the items that have arrived. -/
structure IMapInv {α : Type} (xs : List α) (m : IMap α) (A : List Nat) : Prop where
  out : m.consumed ++ m.items = xs.take m.index
  le : m.index ≤ xs.length
  below : ∀ i, i < m.index → i ∈ A
  wait : ∀ i ∈ A, i < m.index ∨ ∃ x, xs[i]? = some x ∧ Dict.get? m.unsorted i = some x
  only : ∀ i x, Dict.get? m.unsorted i = some x → i ∈ A ∧ xs[i]? = some x
  ready : Dict.get? m.unsorted m.index = none

theorem get?_filter_eq {α : Type} {d : Dict Nat α} {k : Nat} : Dict.get? (d.filter fun e => !decide (e.1 = k)) k = none := by
  cases hg : Dict.get? (d.filter fun e => !decide (e.1 = k)) k with
  | none => rfl
  | some v =>
    have := Dict.mem_of_get? hg
    simp at this

theorem length_filter_lt {α : Type} {d : Dict Nat α} {k : Nat} {x : α} (h : Dict.get? d k = some x) :
    (d.filter fun e => !decide (e.1 = k)).length < d.length := by
  have hm := Dict.mem_of_get? h
  apply List.length_filter_lt_length_iff_exists.mpr
  exact ⟨(k, x), hm, by simp⟩

theorem drain_inv {α : Type} {xs : List α} {A : List Nat} : ∀ {n : Nat} {m : IMap α}, m.unsorted.length ≤ n →
    m.consumed ++ m.items = xs.take m.index → m.index ≤ xs.length → (∀ i, i < m.index → i ∈ A) →
    (∀ i ∈ A, i < m.index ∨ ∃ x, xs[i]? = some x ∧ Dict.get? m.unsorted i = some x) →
    (∀ i x, Dict.get? m.unsorted i = some x → i ∈ A ∧ xs[i]? = some x) →
    IMapInv xs (IMap.drain n m) A
  | 0, m, hn, h1, h2, h3, h4, h5 => by
    have : m.unsorted = [] := List.length_eq_zero_iff.mp (by omega)
    exact ⟨h1, h2, h3, h4, h5, by show Dict.get? m.unsorted m.index = none; rw [this]; rfl⟩
  | n + 1, m, hn, h1, h2, h3, h4, h5 => by
    unfold IMap.drain
    cases hg : Dict.get? m.unsorted m.index with
    | none => exact ⟨h1, h2, h3, h4, h5, hg⟩
    | some x =>
      obtain ⟨ha, hx⟩ := h5 _ _ hg
      have hlt : m.index < xs.length := by
        rw [List.getElem?_eq_some_iff] at hx; exact hx.1
      apply drain_inv
      · have := length_filter_lt hg; simp only at *; omega
      · simp only
        rw [← List.append_assoc, h1, List.take_add_one, hx]; rfl
      · exact hlt
      · intro i hi
        rcases Nat.lt_succ_iff_lt_or_eq.mp hi with h | h
        · exact h3 i h
        · rw [h]; exact ha
      · intro i hi
        rcases h4 i hi with h | ⟨y, hy, hg'⟩
        · exact .inl (Nat.lt_succ_of_lt h)
        · by_cases he : i = m.index
          · exact .inl (by rw [he]; exact Nat.lt_succ_self _)
          · exact .inr ⟨y, hy, by simp only; rw [Dict.get?_filter_ne _ he]; exact hg'⟩
      · intro i y hy
        simp only at hy
        by_cases he : i = m.index
        · rw [he, get?_filter_eq] at hy; cases hy
        · rw [Dict.get?_filter_ne _ he] at hy; exact h5 i y hy

theorem arrive_inv {α : Type} {xs : List α} {m : IMap α} {A : List Nat} (h : IMapInv xs m A) {i : Nat} {x : α} (hi : i ∉ A)
    (hx : xs[i]? = some x) : IMapInv xs (m.arrive i x) (i :: A) := by
  unfold IMap.arrive
  split
  · rename_i he
    subst he
    have hlt : m.index < xs.length := by rw [List.getElem?_eq_some_iff] at hx; exact hx.1
    refine drain_inv (m := { m with items := m.items ++ [x], index := m.index + 1 }) (Nat.le_refl _) ?_ ?_ ?_ ?_ ?_
    · simp only
      rw [← List.append_assoc, h.out, List.take_add_one, hx]; rfl
    · exact hlt
    · intro j hj
      rcases Nat.lt_succ_iff_lt_or_eq.mp hj with h' | h'
      · exact List.mem_cons_of_mem _ (h.below j h')
      · rw [h']; exact List.mem_cons_self
    · intro j hj
      rcases List.mem_cons.mp hj with rfl | hj
      · exact .inl (Nat.lt_succ_self _)
      · rcases h.wait j hj with h' | h'
        · exact .inl (Nat.lt_succ_of_lt h')
        · exact .inr h'
    · intro j y hy
      obtain ⟨a, b⟩ := h.only j y hy
      exact ⟨List.mem_cons_of_mem _ a, b⟩
  · rename_i he
    have hgt : m.index < i := by
      rcases Nat.lt_trichotomy m.index i with h' | h' | h'
      · exact h'
      · exact absurd h' he
      · exact absurd (h.below i h') hi
    refine ⟨h.out, h.le, fun j hj => List.mem_cons_of_mem _ (h.below j hj), ?_, ?_, ?_⟩
    · intro j hj
      rcases List.mem_cons.mp hj with rfl | hj
      · exact .inr ⟨x, hx, by simp [Dict.get?_set_self]⟩
      · rcases h.wait j hj with h' | ⟨y, hy, hg⟩
        · exact .inl h'
        · refine .inr ⟨y, hy, ?_⟩
          have : j ≠ i := fun h' => hi (h' ▸ hj)
          simp only
          rw [Dict.get?_set_ne _ _ this]; exact hg
    · intro j y hy
      simp only at hy
      by_cases hji : j = i
      · rw [hji, Dict.get?_set_self] at hy
        injection hy with hy
        rw [hji, ← hy]; exact ⟨List.mem_cons_self, hx⟩
      · rw [Dict.get?_set_ne _ _ hji] at hy
        obtain ⟨a, b⟩ := h.only j y hy
        exact ⟨List.mem_cons_of_mem _ a, b⟩
    · have : m.index ≠ i := he
      show Dict.get? (Dict.set m.unsorted i x) m.index = none
      rw [Dict.get?_set_ne _ _ this]; exact h.ready

theorem next_inv {α : Type} {xs : List α} {m : IMap α} {A : List Nat} (h : IMapInv xs m A) : IMapInv xs m.next A := by
  unfold IMap.next
  cases hm : m.items with
  | nil => exact h
  | cons x l =>
    refine ⟨?_, h.le, h.below, h.wait, h.only, h.ready⟩
    have := h.out
    rw [hm] at this
    simpa using this

theorem run_inv {α : Type} {xs : List α} : ∀ {es : List IEvent} {m : IMap α} {A : List Nat}, IMapInv xs m A →
    (doneOf es).Nodup → (∀ i ∈ doneOf es, i ∉ A ∧ i < xs.length) →
    ∃ B, (∀ i, i ∈ B ↔ i ∈ A ∨ i ∈ doneOf es) ∧ IMapInv xs (IMap.run xs m es) B
  | [], m, A, h, _, _ => ⟨A, by simp [doneOf], h⟩
  | .next :: es, m, A, h, hn, hd => by
    have e : doneOf (.next :: es) = doneOf es := rfl
    rw [e] at hn hd ⊢
    exact run_inv (next_inv h) hn hd
  | .done i :: es, m, A, h, hn, hd => by
    have e : doneOf (.done i :: es) = i :: doneOf es := rfl
    rw [e] at hn hd ⊢
    obtain ⟨hi, hlt⟩ := hd i (by simp)
    have hx : xs[i]? = some xs[i] := List.getElem?_eq_getElem hlt
    rw [List.nodup_cons] at hn
    simp only [IMap.run, hx]
    obtain ⟨B, hB, hinv⟩ := run_inv (arrive_inv h hi hx) hn.2 (by
      intro j hj
      refine ⟨?_, (hd j (by simp [hj])).2⟩
      intro hm
      rcases List.mem_cons.mp hm with rfl | hm
      · exact hn.1 hj
      · exact (hd j (by simp [hj])).1 hm)
    refine ⟨B, ?_, hinv⟩
    intro j
    rw [hB j]
    simp only [List.mem_cons]
    grind

/-- C18: whatever the order in which workers finish and the consumer asks, what has been delivered is an initial part of the
results in submission order. -/
theorem C18_delivered_prefix {α : Type} (xs : List α) {es : List IEvent} (hn : (doneOf es).Nodup)
    (hd : ∀ i ∈ doneOf es, i < xs.length) :
    (IMap.run xs IMap.init es).consumed <+: xs := by
  have h0 : IMapInv xs (IMap.init : IMap α) [] := ⟨rfl, Nat.zero_le _, by simp [IMap.init], by simp,
    (fun _ _ h => nomatch h), rfl⟩
  obtain ⟨B, -, h⟩ := run_inv h0 hn (fun i hi => ⟨by simp, hd i hi⟩)
  have := List.take_prefix (IMap.run xs IMap.init es).index xs
  rw [← h.out] at this
  exact (List.prefix_append _ _).trans this

/-- C18: once all workers have finished, all results are available, in submission order. -/
theorem C18_delivered_all {α : Type} (xs : List α) {es : List IEvent} (hn : (doneOf es).Nodup)
    (hd : ∀ i, i ∈ doneOf es ↔ i < xs.length) :
    (IMap.run xs IMap.init es).consumed ++ (IMap.run xs IMap.init es).items = xs := by
  have h0 : IMapInv xs (IMap.init : IMap α) [] := ⟨rfl, Nat.zero_le _, by simp [IMap.init], by simp,
    (fun _ _ h => nomatch h), rfl⟩
  obtain ⟨B, hB, h⟩ := run_inv h0 hn (fun i hi => ⟨by simp, (hd i).mp hi⟩)
  rw [h.out]
  have : (IMap.run xs IMap.init es).index = xs.length := by
    rcases Nat.lt_or_eq_of_le h.le with hlt | heq
    · have hm : (IMap.run xs IMap.init es).index ∈ B := (hB _).mpr (.inr ((hd _).mpr hlt))
      rcases h.wait _ hm with h' | ⟨x, _, hx⟩
      · exact absurd h' (Nat.lt_irrefl _)
      · rw [h.ready] at hx; cases hx
    · exact heq
  rw [this, List.take_length]

example : (IMap.run ["a", "b", "c"] IMap.init [.done 2, .next, .done 0, .next, .next, .done 1, .next, .next]).consumed =
    ["a", "b", "c"] := by decide

/-! ### The loop -/

/-- The files that did not raise. -/
def okOuts (l : List (Option ProcRes)) : List FileOut := l.map .ok

theorem firstError_okOuts (l : List (Option ProcRes)) : firstError (okOuts l) = none := by
  induction l with
  | nil => rfl
  | cons x l ih => exact ih

theorem procLoop_okOuts (cfg : Config) : ∀ (l : List (Option ProcRes)) (a : ProcAcc),
    procLoop cfg a (okOuts l) = (l.foldl (procStep cfg) a, none)
  | [], _ => rfl
  | _ :: l, _ => procLoop_okOuts cfg l _

/-- The result of processing files of which none raised an exception. -/
def processed (cfg : Config) (l : List (Option ProcRes)) : ProcAcc :=
  let a := l.foldl (procStep cfg) ProcAcc.init
  { a with uniqueVersions := sort verLe a.uniqueVersions }

theorem processSeq_ok (cfg : Config) (l : List (Option ProcRes)) : processSeq cfg (okOuts l) = .ok (processed cfg l) := by
  simp [processSeq, firstError_okOuts, procLoop_okOuts, procEnd, processed]

/-- C18: with any number of processes and any completion schedule, the result is that of one process, provided no file
raised an exception. -/
theorem C18_parallel_sequential_partial (cfg : Config) (l : List (Option ProcRes)) {es : List IEvent} (hn : (doneOf es).Nodup)
    (hd : ∀ i ∈ doneOf es, i < (okOuts l).length)
    (hall : (IMap.run (okOuts l) IMap.init es).consumed.length = (okOuts l).length) :
    processPar cfg (IMap.run (okOuts l) IMap.init es).consumed = processSeq cfg (okOuts l) := by
  have := C18_delivered_prefix (okOuts l) hn hd
  rw [this.eq_of_length hall, processSeq_ok]
  simp [processPar, procLoop_okOuts, procEnd, processed]

/-- C18: exceptions or not, runs with several processes agree with each other. -/
theorem C18_schedule_independent (cfg : Config) (xs : List FileOut) {es es' : List IEvent} (hn : (doneOf es).Nodup)
    (hn' : (doneOf es').Nodup) (hd : ∀ i ∈ doneOf es, i < xs.length) (hd' : ∀ i ∈ doneOf es', i < xs.length)
    (hall : (IMap.run xs IMap.init es).consumed.length = xs.length)
    (hall' : (IMap.run xs IMap.init es').consumed.length = xs.length) :
    processPar cfg (IMap.run xs IMap.init es).consumed = processPar cfg (IMap.run xs IMap.init es').consumed := by
  rw [(C18_delivered_prefix xs hn hd).eq_of_length hall, (C18_delivered_prefix xs hn' hd').eq_of_length hall']

/-- A file with minimum versions. -/
def plainFile (path : String) (m : Req) : ProcRes :=
  { path := path, mins := some m, text := "", novermin := [], bps := [], maybeAnnotations := false }

/-- C18 is false when a file raises RuntimeError (RecursionError): one process then forgets all files, several keep the
earlier ones. -/
theorem C18_false_on_errors : ∃ (cfg : Config) (xs : List FileOut) (a b : ProcAcc),
    processSeq cfg xs = .ok a ∧ processPar cfg xs = .ok b ∧ a.mins ≠ b.mins :=
  ⟨Config.init 1, [.ok (some (plainFile "a.py" ⟨none, some ⟨3, 8⟩⟩)), .error .runtimeError], _, _, rfl, rfl, by decide⟩

theorem split_error : ∀ (xs : List FileOut), (∃ l, xs = okOuts l) ∨ ∃ pre e post, xs = okOuts pre ++ .error e :: post
  | [] => .inl ⟨[], rfl⟩
  | .ok r :: xs => by
    rcases split_error xs with ⟨l, rfl⟩ | ⟨pre, e, post, rfl⟩
    · exact .inl ⟨r :: l, rfl⟩
    · exact .inr ⟨r :: pre, e, post, rfl⟩
  | .error e :: xs => .inr ⟨[], e, xs, rfl⟩

theorem firstError_split : ∀ (pre : List (Option ProcRes)) (e : Err) (post : List FileOut), firstError (okOuts pre ++ .error e :: post) = some e
  | [], _, _ => rfl
  | _ :: pre, e, post => firstError_split pre e post

theorem procLoop_split {cfg : Config} : ∀ (pre : List (Option ProcRes)) (e : Err) (post : List FileOut) (a : ProcAcc),
    procLoop cfg a (okOuts pre ++ .error e :: post) = (pre.foldl (procStep cfg) a, some e)
  | [], _, _, _ => rfl
  | _ :: pre, e, post, _ => procLoop_split pre e post _

/-- C18, exactly: several processes give what one gives unless a file raises RuntimeError and the files before it have left a trace. -/
theorem C18_exact (cfg : Config) (xs : List FileOut) {es : List IEvent} (hn : (doneOf es).Nodup)
    (hd : ∀ i ∈ doneOf es, i < xs.length) (hall : (IMap.run xs IMap.init es).consumed.length = xs.length) :
    processPar cfg (IMap.run xs IMap.init es).consumed = processSeq cfg xs ↔
      ∀ pre post, xs = okOuts pre ++ .error .runtimeError :: post → pre.foldl (procStep cfg) ProcAcc.init = ProcAcc.init := by
  rw [(C18_delivered_prefix xs hn hd).eq_of_length hall]
  have inj : ∀ {p p' : List (Option ProcRes)} {e e' : Err} {q q' : List FileOut},
      okOuts p ++ .error e :: q = okOuts p' ++ .error e' :: q' → p = p' ∧ e = e' := by
    intro p
    induction p with
    | nil =>
      intro p' e e' q q' h
      cases p' with
      | nil => cases h; exact ⟨rfl, rfl⟩
      | cons a p' => cases h
    | cons a p ih =>
      intro p' e e' q q' h
      cases p' with
      | nil => cases h
      | cons a' p' =>
        simp only [okOuts, List.map_cons, List.cons_append, List.cons.injEq, Except.ok.injEq] at h
        obtain ⟨rfl, h⟩ := h
        obtain ⟨h1, h2⟩ := ih h
        exact ⟨by rw [h1], h2⟩
  rcases split_error xs with ⟨l, rfl⟩ | ⟨pre, e, post, rfl⟩
  · rw [processSeq_ok]
    refine ⟨fun _ pre post h => ?_, fun _ => by simp [processPar, procLoop_okOuts, procEnd, processed]⟩
    have := congrArg firstError h
    rw [firstError_okOuts, firstError_split] at this
    cases this
  · unfold processPar processSeq
    rw [firstError_split, procLoop_split]
    dsimp only
    by_cases he : e = .runtimeError
    · subst he
      constructor
      · intro h pre' post' h'
        obtain ⟨rfl, -⟩ := inj h'
        generalize pre.foldl (procStep cfg) ProcAcc.init = a at h
        obtain ⟨a1, a2, a3, a4, a5, a6, a7⟩ := a
        simp only [procEnd, Except.ok.injEq, ProcAcc.mk.injEq, List.append_cancel_right_eq] at h
        have hs : ∀ l : List Ver, sort verLe l = sort verLe ProcAcc.init.uniqueVersions → l = [] := by
          intro l h
          have := (sort_perm (le := verLe) l).length_eq
          rw [h] at this
          exact List.length_eq_zero_iff.mp this.symm
        grind [ProcAcc.init]
      · intro h
        rw [h pre post rfl]
    · refine ⟨fun _ pre' post' h => absurd (inj h).2 he, fun _ => ?_⟩
      cases e <;> first | rfl | exact absurd rfl he

/-! ### C17: the overall minimum -/

/-- The minimum versions of the files that have any. -/
def fileMins (l : List (Option ProcRes)) : List Req := l.filterMap fun r => r.bind (·.mins)

theorem fileMins_cons (r : Option ProcRes) (l : List (Option ProcRes)) :
    fileMins (r :: l) = (r.bind (·.mins)).toList ++ fileMins l := by
  unfold fileMins
  cases h : r.bind (·.mins) <;> simp [h]

theorem procStep_mins {cfg : Config} {a : ProcAcc} {r : Option ProcRes} :
    (procStep cfg a r).mins = match r.bind (·.mins) with
      | none => a.mins
      | some m => match combineVersions cfg.ignoreIncomp a.mins m with
        | .ok x => x
        | .error _ => a.mins := by
  cases r with
  | none => rfl
  | some r =>
    simp only [procStep, Option.bind_some]
    cases r.mins with
    | none => rfl
    | some m =>
      simp only
      cases combineVersions cfg.ignoreIncomp a.mins m <;> rfl

theorem foldl_mins {cfg : Config} : ∀ {l : List (Option ProcRes)} {a : ProcAcc} {r : Req},
    combineFrom cfg.ignoreIncomp none a.mins (fileMins l) = .ok r → (l.foldl (procStep cfg) a).mins = r
  | [], a, r, h => by
    have h : combineFrom cfg.ignoreIncomp none a.mins [] = .ok r := h
    rw [combineFrom_nil] at h; injection h
  | x :: l, a, r, h => by
    rw [List.foldl_cons]
    rw [fileMins_cons] at h
    have hs := procStep_mins (cfg := cfg) (a := a) (r := x)
    cases hm : x.bind (·.mins) with
    | none =>
      rw [hm] at h hs
      exact foldl_mins (by rw [hs]; exact h)
    | some m =>
      rw [hm] at h hs
      simp only [Option.toList_some, List.singleton_append, combineFrom_cons] at h
      cases hc : combineVersions cfg.ignoreIncomp a.mins m with
      | error e => rw [hc] at h; cases h
      | ok b =>
        rw [hc] at h
        simp only [hc] at hs
        exact foldl_mins (by rw [hs]; exact h)

/-- The files can be combined: incompatibilities are ignored, or there are not both 2-only and 3-only files. -/
def Mutual (cfg : Config) (l : List (Option ProcRes)) : Prop :=
  cfg.ignoreIncomp = true ∨
    ((∀ m ∈ fileMins l, Sane m) ∧ ¬ ((∃ a ∈ fileMins l, Py2Only a) ∧ ∃ b ∈ fileMins l, Py3Only b))

theorem mutual_combines {cfg : Config} {l : List (Option ProcRes)} (h : Mutual cfg l) :
    ∃ r, combineAll cfg.ignoreIncomp none (fileMins l) = .ok r := by
  rcases h with h | ⟨h1, h2⟩
  · rw [h]; exact ⟨_, combineFrom_ignore _ _ _⟩
  · cases hc : combineAll cfg.ignoreIncomp none (fileMins l) with
    | ok r => exact ⟨r, rfl⟩
    | error e => exact absurd ((C03_error_iff _ _ h1).mp ⟨e, hc⟩).2 h2

/-- C17: an interpreter satisfies the overall minimum iff it satisfies every file's. -/
theorem C17_overall_minimum {cfg : Config} {l : List (Option ProcRes)} (h : Mutual cfg l) (v : Ver) :
    Satisfies v (processed cfg l).mins ↔ (v.major = 2 ∨ v.major = 3) ∧ ∀ m ∈ fileMins l, Satisfies v m := by
  obtain ⟨r, hr⟩ := mutual_combines h
  have : (processed cfg l).mins = r := foldl_mins (a := ProcAcc.init) hr
  rw [this]
  exact C04_satisfies_all hr v

/-- C17: the order of the files does not matter. -/
theorem C17_order_independent {cfg : Config} {l l' : List (Option ProcRes)} (hp : l.Perm l') (h : Mutual cfg l) :
    (processed cfg l).mins = (processed cfg l').mins := by
  obtain ⟨r, hr⟩ := mutual_combines h
  have hpm : (fileMins l).Perm (fileMins l') := hp.filterMap _
  have hr' : combineAll cfg.ignoreIncomp none (fileMins l') = .ok r := by
    rcases h with h | ⟨h1, _⟩
    · rw [h] at hr ⊢
      obtain ⟨r', e1, e2⟩ := C03_order_independent_ignore none none hpm
      rw [e1] at hr; injection hr with hr; rw [← hr]; exact e2
    · exact (C03_order_independent _ none none hpm h1 r).mp hr
  rw [show (processed cfg l).mins = r from foldl_mins (a := ProcAcc.init) hr,
    show (processed cfg l').mins = r from foldl_mins (a := ProcAcc.init) hr']

/-- Files that conflict: then the result does depend on their order. -/
theorem C17_conflict_order : ∃ (cfg : Config) (l l' : List (Option ProcRes)), l.Perm l' ∧
    (processed cfg l).mins ≠ (processed cfg l').mins :=
  ⟨Config.init 1, [some (plainFile "a" ⟨some ⟨2, 0⟩, none⟩), some (plainFile "b" ⟨none, some ⟨3, 0⟩⟩)],
    [some (plainFile "b" ⟨none, some ⟨3, 0⟩⟩), some (plainFile "a" ⟨some ⟨2, 0⟩, none⟩)], List.Perm.swap _ _ _, by decide⟩

example : (processed (Config.init 1) [some (plainFile "a" ⟨some ⟨2, 7⟩, some ⟨3, 2⟩⟩), none,
    some (plainFile "b" ⟨none, some ⟨3, 0⟩⟩)]).mins = ⟨none, some ⟨3, 2⟩⟩ := by decide

/-! ### C19: the incompatible flag -/

/-- The file adds to incompatibility: it was incompatible by itself, or conflicts with `acc`. -/
def Clashes (cfg : Config) (acc : Req) (r : Option ProcRes) : Prop :=
  ∃ f, r = some f ∧ (f.mins = none ∨ ∃ m, f.mins = some m ∧ cfg.ignoreIncomp = false ∧ Conflict acc m)

theorem procStep_incomp {cfg : Config} {a : ProcAcc} {r : Option ProcRes} :
    (procStep cfg a r).incomp = true ↔ a.incomp = true ∨ Clashes cfg a.mins r := by
  cases r with
  | none => simp [procStep, Clashes]
  | some f =>
    cases hm : f.mins with
    | none => simp [procStep, Clashes, hm]
    | some m =>
      have key := C02_combine_raises_iff cfg.ignoreIncomp a.mins m none
      simp only [procStep, hm]
      cases hc : combineVersions cfg.ignoreIncomp a.mins m with
      | ok x =>
        simp only
        have : ¬ (cfg.ignoreIncomp = false ∧ Conflict a.mins m) := by
          rw [← key, hc]; rintro ⟨e, h⟩; cases h
        constructor
        · exact .inl
        · rintro (h | ⟨g, hg, h | ⟨m', h1, h2, h3⟩⟩)
          · exact h
          · injection hg with hg; rw [← hg, hm] at h; cases h
          · injection hg with hg; rw [← hg, hm] at h1; injection h1 with h1
            rw [← h1] at h3; exact absurd ⟨h2, h3⟩ this
      | error e =>
        simp only [true_iff]
        have : cfg.ignoreIncomp = false ∧ Conflict a.mins m := key.mp ⟨e, hc⟩
        exact .inr ⟨f, rfl, .inr ⟨m, hm, this⟩⟩

theorem foldl_incomp {cfg : Config} : ∀ {l : List (Option ProcRes)} {a : ProcAcc},
    (l.foldl (procStep cfg) a).incomp = true ↔ a.incomp = true ∨
      ∃ pre r post, l = pre ++ r :: post ∧ Clashes cfg (pre.foldl (procStep cfg) a).mins r
  | [], a => by simp
  | x :: l, a => by
    rw [List.foldl_cons]
    refine Iff.trans foldl_incomp ?_
    rw [procStep_incomp]
    constructor
    · rintro ((h | h) | ⟨pre, r, post, rfl, h⟩)
      · exact .inl h
      · exact .inr ⟨[], x, l, rfl, h⟩
      · exact .inr ⟨x :: pre, r, post, rfl, h⟩
    · rintro (h | ⟨pre, r, post, he, h⟩)
      · exact .inl (.inl h)
      · cases pre with
        | nil =>
          simp only [List.nil_append, List.cons.injEq] at he
          rw [← he.1] at h
          exact .inl (.inr h)
        | cons p pre =>
          simp only [List.cons_append, List.cons.injEq] at he
          rw [he.2]
          rw [← he.1] at h
          exact .inr ⟨pre, r, post, rfl, h⟩

/-- C19: incompatible is reported iff some file was incompatible by itself or conflicted with what the files before it
require. -/
theorem C19_incompatible_iff (cfg : Config) (l : List (Option ProcRes)) :
    (processed cfg l).incomp = true ↔
      ∃ pre r post, l = pre ++ r :: post ∧ Clashes cfg (processed cfg pre).mins r := by
  show (l.foldl (procStep cfg) ProcAcc.init).incomp = true ↔ _
  rw [foldl_incomp]
  simp only [ProcAcc.init, Bool.false_eq_true, false_or]
  exact Iff.rfl

/-- C19: such a file, or one that is no python code, leaves the minimum as it was. -/
theorem C19_minimum_kept (cfg : Config) (l : List (Option ProcRes)) (r : Option ProcRes)
    (h : r = none ∨ Clashes cfg (processed cfg l).mins r) :
    (processed cfg (l ++ [r])).mins = (processed cfg l).mins := by
  show ((l ++ [r]).foldl (procStep cfg) ProcAcc.init).mins = (l.foldl (procStep cfg) ProcAcc.init).mins
  rw [List.foldl_append, List.foldl_cons, List.foldl_nil, procStep_mins]
  rcases h with rfl | ⟨f, rfl, h | ⟨m, hm, hi, hc⟩⟩
  · rfl
  · simp [h]
  · simp only [Option.bind_some, hm]
    obtain ⟨e, he⟩ := (C02_combine_raises_iff cfg.ignoreIncomp (processed cfg l).mins m none).mpr ⟨hi, hc⟩
    have he' : combineVersions cfg.ignoreIncomp (l.foldl (procStep cfg) ProcAcc.init).mins m = .error e := he
    rw [he']

/-- C19: every other file is combined with what was accumulated. -/
theorem C19_minimum_combined (cfg : Config) (l : List (Option ProcRes)) (f : ProcRes) (m : Req) (hm : f.mins = some m)
    (h : ¬ Clashes cfg (processed cfg l).mins (some f)) (v : Ver) :
    Satisfies v (processed cfg (l ++ [some f])).mins ↔ Satisfies v (processed cfg l).mins ∧ Satisfies v m := by
  have e : (processed cfg (l ++ [some f])).mins = (procStep cfg (l.foldl (procStep cfg) ProcAcc.init) (some f)).mins := by
    show ((l ++ [some f]).foldl (procStep cfg) ProcAcc.init).mins = _
    rw [List.foldl_append, List.foldl_cons, List.foldl_nil]
  rw [e, procStep_mins]
  simp only [Option.bind_some, hm]
  cases hc : combineVersions cfg.ignoreIncomp (l.foldl (procStep cfg) ProcAcc.init).mins m with
  | ok x => exact C01_combine_satisfies hc v
  | error er =>
    exact absurd ⟨f, rfl, .inr ⟨m, hm, (C02_combine_raises_iff _ _ _ none).mp ⟨er, hc⟩⟩⟩ h

/-- The file is analysed and left out of the result only if it conflicts with the files before it. -/
def Accepted (cfg : Config) (l : List (Option ProcRes)) (f : ProcRes) (m : Req) : Prop :=
  ∃ pre post, l = pre ++ some f :: post ∧ f.mins = some m ∧ ¬ Clashes cfg (processed cfg pre).mins (some f)

/-- **C17.** For all collections of files: an interpreter satisfies the overall minimum iff it satisfies those of all files that do not conflict with the
files before them. -/
theorem C17_accepted (cfg : Config) (v : Ver) (l : List (Option ProcRes)) :
    Satisfies v (processed cfg l).mins ↔ (v.major = 2 ∨ v.major = 3) ∧ ∀ f m, Accepted cfg l f m → Satisfies v m := by
  have key : ∀ n, ∀ l : List (Option ProcRes), l.length = n →
      (Satisfies v (processed cfg l).mins ↔ (v.major = 2 ∨ v.major = 3) ∧ ∀ f m, Accepted cfg l f m → Satisfies v m) := by
    intro n
    induction n with
    | zero =>
      intro l hl
      rw [List.length_eq_zero_iff] at hl
      subst hl
      refine (C17_overall_minimum (cfg := cfg) (l := []) (.inr ⟨nofun, nofun⟩) v).trans (and_congr_right fun _ => ⟨?_, fun _ => nofun⟩)
      rintro - f m ⟨pre, post, h, -⟩
      cases pre <;> cases h
    | succ n ih =>
      intro l hl
      obtain ⟨l, r, rfl⟩ : ∃ l' r, l = l' ++ [r] := ⟨l.dropLast, l.getLast (by rintro rfl; cases hl), (List.dropLast_concat_getLast _).symm⟩
      have hl : l.length = n := by simpa using hl
      have ih := ih l hl
      have acc : ∀ f m, Accepted cfg (l ++ [r]) f m ↔
          Accepted cfg l f m ∨ (r = some f ∧ f.mins = some m ∧ ¬ Clashes cfg (processed cfg l).mins (some f)) := by
        intro f m
        constructor
        · rintro ⟨pre, post, h, hm, hc⟩
          rcases List.eq_nil_or_concat post with rfl | ⟨post, b, rfl⟩
          · obtain ⟨h1, h2⟩ := List.append_inj' h rfl
            cases h2
            exact .inr ⟨rfl, hm, h1 ▸ hc⟩
          · rw [List.concat_eq_append, ← List.cons_append, ← List.append_assoc] at h
            obtain ⟨h1, h2⟩ := List.append_inj' h rfl
            exact .inl ⟨pre, post, h1, hm, hc⟩
        · rintro (⟨pre, post, h, hm, hc⟩ | ⟨rfl, hm, hc⟩)
          · exact ⟨pre, post ++ [r], by rw [h]; simp, hm, hc⟩
          · exact ⟨l, [], rfl, hm, hc⟩
      by_cases hr : r = none ∨ Clashes cfg (processed cfg l).mins r
      · rw [C19_minimum_kept cfg l r hr, ih]
        refine and_congr_right fun _ => forall_congr' fun f => forall_congr' fun m => ?_
        rw [acc]
        refine ⟨fun h h' => h'.elim h fun ⟨h1, _, h3⟩ => ?_, fun h h' => h (.inl h')⟩
        subst h1
        exact absurd (hr.resolve_left (fun h => by cases h)) h3
      · cases r with
        | none => exact absurd (.inl rfl) hr
        | some f =>
          have hc : ¬ Clashes cfg (processed cfg l).mins (some f) := fun h => hr (.inr h)
          cases hm : f.mins with
          | none => exact absurd ⟨f, rfl, .inl hm⟩ hc
          | some m =>
            rw [C19_minimum_combined cfg l f m hm hc v, ih]
            constructor
            · rintro ⟨⟨h1, h2⟩, h3⟩
              refine ⟨h1, fun g x h => ?_⟩
              rcases (acc g x).mp h with h | ⟨h, hx, -⟩
              · exact h2 g x h
              · cases h; rw [hm] at hx; cases hx; exact h3
            · rintro ⟨h1, h2⟩
              exact ⟨⟨h1, fun g x h => h2 g x ((acc g x).mpr (.inl h))⟩, h2 f m ((acc f m).mpr (.inr ⟨rfl, hm, hc⟩))⟩
  exact key _ l rfl

/-- Of three files the second one conflicts with the first one, and is left out. -/
theorem C17_accepted_witness :
    let l := [some (plainFile "a" ⟨some ⟨2, 0⟩, none⟩), some (plainFile "b" ⟨none, some ⟨3, 0⟩⟩), some (plainFile "c" ⟨some ⟨2, 7⟩, some ⟨3, 1⟩⟩)]
    (processed (Config.init 1) l).mins = ⟨some ⟨2, 7⟩, none⟩ := by decide +kernel

/-! ### C21: the version range -/

theorem mem_addVer {s : List Ver} {v x : Ver} : x ∈ addVer s v ↔ x ∈ s ∨ x = v := by
  unfold addVer
  split
  · rename_i h; simp only [List.contains_iff_mem] at h
    constructor
    · exact .inl
    · rintro (h' | rfl)
      · exact h'
      · exact h
  · simp

theorem mem_addUnique {s : List Ver} {o : Option Ver} {x : Ver} :
    x ∈ addUnique s o ↔ x ∈ s ∨ (o = some x ∧ Ver.zero < x) := by
  cases o with
  | none => simp [addUnique]
  | some v =>
    simp only [addUnique, Option.some.injEq]
    split
    · rename_i h; rw [mem_addVer]
      constructor
      · rintro (h' | rfl)
        · exact .inl h'
        · exact .inr ⟨rfl, h⟩
      · rintro (h' | ⟨rfl, _⟩)
        · exact .inl h'
        · exact .inr rfl
    · rename_i h
      constructor
      · exact .inl
      · rintro (h' | ⟨rfl, h'⟩)
        · exact h'
        · exact absurd h' h

theorem nodup_addUnique {s : List Ver} {o : Option Ver} (h : s.Nodup) : (addUnique s o).Nodup := by
  cases o with
  | none => exact h
  | some v =>
    simp only [addUnique]
    split
    · unfold addVer
      split
      · exact h
      · rename_i h'
        simp only [List.contains_iff_mem] at h'
        rw [List.nodup_append]
        refine ⟨h, by simp, ?_⟩
        intro a ha b hb hab
        rw [List.mem_singleton] at hb
        rw [hab, hb] at ha
        exact h' ha
    · exact h

theorem procStep_unique {cfg : Config} {a : ProcAcc} {r : Option ProcRes} :
    (procStep cfg a r).uniqueVersions = match r.bind (·.mins) with
      | none => a.uniqueVersions
      | some m => addUnique (addUnique a.uniqueVersions m.py2) m.py3 := by
  cases r with
  | none => rfl
  | some r =>
    simp only [procStep, Option.bind_some]
    cases r.mins with
    | none => rfl
    | some m =>
      simp only
      cases combineVersions cfg.ignoreIncomp a.mins m <;> rfl

theorem foldl_unique {cfg : Config} : ∀ {l : List (Option ProcRes)} {a : ProcAcc}, a.uniqueVersions.Nodup →
    (l.foldl (procStep cfg) a).uniqueVersions.Nodup ∧
    ∀ v, v ∈ (l.foldl (procStep cfg) a).uniqueVersions ↔
      v ∈ a.uniqueVersions ∨ (Ver.zero < v ∧ ∃ m ∈ fileMins l, m.py2 = some v ∨ m.py3 = some v)
  | [], a, h => ⟨h, by simp [fileMins]⟩
  | x :: l, a, h => by
    have hs := procStep_unique (cfg := cfg) (a := a) (r := x)
    have hn : (procStep cfg a x).uniqueVersions.Nodup := by
      rw [hs]; split
      · exact h
      · exact nodup_addUnique (nodup_addUnique h)
    obtain ⟨h1, h2⟩ := foldl_unique (cfg := cfg) (l := l) hn
    refine ⟨h1, fun v => ?_⟩
    rw [List.foldl_cons]
    refine Iff.trans (h2 v) ?_
    rw [hs, fileMins_cons]
    cases x.bind (·.mins) with
    | none => simp
    | some m =>
      simp only [mem_addUnique, Option.toList_some, List.singleton_append, List.mem_cons]
      constructor
      · rintro (((h | ⟨h, h'⟩) | ⟨h, h'⟩) | ⟨h, m', hm, h'⟩)
        · exact .inl h
        · exact .inr ⟨h', m, .inl rfl, .inl h⟩
        · exact .inr ⟨h', m, .inl rfl, .inr h⟩
        · exact .inr ⟨h, m', .inr hm, h'⟩
      · rintro (h | ⟨h, m', rfl | hm, h' | h'⟩)
        · exact .inl (.inl (.inl h))
        · exact .inl (.inl (.inr ⟨h', h⟩))
        · exact .inl (.inr ⟨h', h⟩)
        · exact .inr ⟨h, m', hm, .inl h'⟩
        · exact .inr ⟨h, m', hm, .inr h'⟩

theorem verLe_preord : IsPreord verLe := by
  refine ⟨?_, ?_⟩
  · intro a b
    simp only [verLe, decide_eq_true_eq]
    show a.le b ∨ b.le a
    unfold Ver.le; omega
  · intro a b c
    simp only [verLe, decide_eq_true_eq]
    show a.le b → b.le c → a.le c
    unfold Ver.le; omega

/-- C21: the version range is strictly ascending and has exactly the versions above 0.0 of the files' minimums. -/
theorem C21_range (cfg : Config) (l : List (Option ProcRes)) :
    (processed cfg l).uniqueVersions.Pairwise (· < ·) ∧
    ∀ v, v ∈ (processed cfg l).uniqueVersions ↔ Ver.zero < v ∧ ∃ m ∈ fileMins l, m.py2 = some v ∨ m.py3 = some v := by
  obtain ⟨h1, h2⟩ := foldl_unique (cfg := cfg) (l := l) (a := ProcAcc.init) List.nodup_nil
  have hp := sort_perm (le := verLe) (l.foldl (procStep cfg) ProcAcc.init).uniqueVersions
  have hnd : (sort verLe (l.foldl (procStep cfg) ProcAcc.init).uniqueVersions).Nodup := hp.nodup_iff.mpr h1
  have hso := sort_sorted verLe_preord (l.foldl (procStep cfg) ProcAcc.init).uniqueVersions
  refine ⟨?_, ?_⟩
  · show (sort verLe (l.foldl (procStep cfg) ProcAcc.init).uniqueVersions).Pairwise (· < ·)
    have := List.Pairwise.and hso hnd
    refine this.imp ?_
    rintro a b ⟨hle, hne⟩
    simp only [verLe, decide_eq_true_eq] at hle
    have hle : a.le b := hle
    show a.lt b
    have : ¬ (a.major = b.major ∧ a.minor = b.minor) := by
      rintro ⟨e1, e2⟩; apply hne; cases a; cases b; simp_all
    unfold Ver.le at hle
    unfold Ver.lt
    omega
  · intro v
    show v ∈ sort verLe (l.foldl (procStep cfg) ProcAcc.init).uniqueVersions ↔ _
    rw [mem_sort, h2 v]
    simp [ProcAcc.init]

/-- C21: it does not depend on the order of the files. -/
theorem C21_order_independent (cfg : Config) {l l' : List (Option ProcRes)} (hp : l.Perm l') :
    (processed cfg l).uniqueVersions = (processed cfg l').uniqueVersions := by
  obtain ⟨h1, h2⟩ := C21_range cfg l
  obtain ⟨h1', h2'⟩ := C21_range cfg l'
  have hpm : (fileMins l).Perm (fileMins l') := hp.filterMap _
  have lt_irrefl : ∀ a : Ver, ¬ a < a := by
    intro a h; have h : a.lt a := h; unfold Ver.lt at h; omega
  have nd : ∀ {s : List Ver}, s.Pairwise (· < ·) → s.Nodup := by
    intro s h
    refine h.imp ?_
    rintro a b hab rfl
    exact lt_irrefl _ hab
  have perm : (processed cfg l).uniqueVersions.Perm (processed cfg l').uniqueVersions := by
    rw [List.perm_ext_iff_of_nodup (nd h1) (nd h1')]
    intro v
    rw [h2 v, h2' v]
    refine and_congr_right fun _ => ?_
    constructor
    · rintro ⟨m, hm, h⟩; exact ⟨m, hpm.mem_iff.mp hm, h⟩
    · rintro ⟨m, hm, h⟩; exact ⟨m, hpm.mem_iff.mpr hm, h⟩
  refine eq_of_sorted_perm (le := verLe) perm ?_ ?_ ?_
  · exact h1.imp fun {a b} h => by
      have h : a.lt b := h
      simp only [verLe, decide_eq_true_eq]
      show a.le b
      unfold Ver.lt at h; unfold Ver.le; omega
  · exact h1'.imp fun {a b} h => by
      have h : a.lt b := h
      simp only [verLe, decide_eq_true_eq]
      show a.le b
      unfold Ver.lt at h; unfold Ver.le; omega
  · intro a _ b _ ha hb
    simp only [verLe, decide_eq_true_eq] at ha hb
    have ha : a.le b := ha
    have hb : b.le a := hb
    unfold Ver.le at ha hb
    cases a; cases b
    simp only [Ver.mk.injEq] at *
    omega

example : (processed (Config.init 1) [some (plainFile "a" ⟨some ⟨2, 7⟩, some ⟨3, 2⟩⟩), none,
    some (plainFile "b" ⟨none, some ⟨3, 0⟩⟩), some (plainFile "c" ⟨some ⟨0, 0⟩, some ⟨3, 2⟩⟩)]).uniqueVersions =
    [⟨2, 7⟩, ⟨3, 0⟩, ⟨3, 2⟩] := by decide

end Vermin.Props
