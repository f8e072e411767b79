import Verif.Lemmas.Shuffled
import Verif.Props.Reproducible
import Verif.Props.File
import Verif.Props.Program
import Verif.Spec.Rearranged
/-
C99: no run depends on the order in which Python enumerates sets, except for the order of lines.
-/
namespace Vermin.Props
open Vermin Vermin.Py Vermin.Spec

/-! ### Texts -/

/-- Whole texts made of the same lines, or the same text. -/
def Relined (a b : String) : Prop :=
  a = b ∨ ∃ ls ls' : List (List Char), ls.Perm ls' ∧ (∀ l ∈ ls, l.getLast? = some '\n') ∧ a.toList = ls.flatten ∧ b.toList = ls'.flatten

theorem rearranged_self (a : String) : Rearranged a a := ⟨a.toList, [], [], [], .refl _, (fun _ h => absurd h List.not_mem_nil), by simp, by simp⟩

theorem Relined.length {a b : String} (h : Relined a b) : a.toList.length = b.toList.length := by
  rcases h with rfl | ⟨ls, ls', hp, _, ha, hb⟩
  · rfl
  · rw [ha, hb]; exact hp.flatten.length_eq

/-- A text in the middle of another. -/
theorem Relined.within {a b : String} (h : Relined a b) (pre post : List Char) :
    Rearranged (String.ofList (pre ++ a.toList ++ post)) (String.ofList (pre ++ b.toList ++ post)) := by
  rcases h with rfl | ⟨ls, ls', hp, hl, ha, hb⟩
  · exact rearranged_self _
  · exact ⟨pre, post, ls, ls', hp, hl, by simp [ha], by simp [hb]⟩

theorem split_plain {c : Char} {s : List Char} (acc : List Char) (h : ¬ (c = '\r' ∧ ∃ t, s = '\n' :: t)) : splitlinesKeepAux (c :: s) acc =
    if isLineBreak c then ((c :: acc).reverse) :: splitlinesKeepAux s [] else splitlinesKeepAux s (c :: acc) := by
  rw [splitlinesKeepAux]
  intro t hc ht
  exact h ⟨hc, t, ht⟩

/-- Lines are split after a line break, whatever follows. -/
theorem split_break (n : Nat) : ∀ w acc : List Char, w.length ≤ n → ∃ front z, ∀ rest, splitlinesKeepAux (w ++ '\n' :: rest) acc =
    front ++ (z ++ ['\n']) :: splitlinesKeepAux rest [] := by
  induction n with
  | zero =>
    intro w acc hw
    cases List.length_eq_zero_iff.mp (Nat.le_zero.mp hw)
    refine ⟨[], acc.reverse, fun rest => ?_⟩
    rw [List.nil_append, split_plain acc (fun h => by cases h.1), if_pos (by decide)]
    simp
  | succ n ih =>
    intro w acc hw
    match w with
    | [] => exact ih [] acc (Nat.zero_le _)
    | c :: w =>
      by_cases hc : c = '\r' ∧ ∃ t, w ++ ['\n'] = '\n' :: t
      · obtain ⟨rfl, t, ht⟩ := hc
        match w with
        | [] =>
          refine ⟨[], acc.reverse ++ ['\r'], fun rest => ?_⟩
          show splitlinesKeepAux ('\r' :: '\n' :: rest) acc = _
          rw [splitlinesKeepAux]
          simp
        | d :: w =>
          injection ht with hd _
          subst hd
          obtain ⟨front, z, h⟩ := ih w [] (by simp only [List.length_cons] at hw; omega)
          refine ⟨('\n' :: '\r' :: acc).reverse :: front, z, fun rest => ?_⟩
          show splitlinesKeepAux ('\r' :: '\n' :: (w ++ '\n' :: rest)) acc = _
          rw [splitlinesKeepAux, h]
          rfl
      · have hc' : ∀ rest, ¬ (c = '\r' ∧ ∃ t, w ++ '\n' :: rest = '\n' :: t) := by
          rintro rest ⟨rfl, t, ht⟩
          refine hc ⟨rfl, ?_⟩
          cases w with
          | nil => exact ⟨[], rfl⟩
          | cons d w => injection ht with hd _; subst hd; exact ⟨_, rfl⟩
        have hw' : w.length ≤ n := by simp only [List.length_cons] at hw; omega
        cases hb : isLineBreak c with
        | true =>
          obtain ⟨front, z, h⟩ := ih w [] hw'
          refine ⟨(c :: acc).reverse :: front, z, fun rest => ?_⟩
          rw [List.cons_append, split_plain acc (hc' rest), if_pos hb, h]
          rfl
        | false =>
          obtain ⟨front, z, h⟩ := ih w (c :: acc) hw'
          refine ⟨front, z, fun rest => ?_⟩
          rw [List.cons_append, split_plain acc (hc' rest), hb, if_neg (by simp), h]

/-- The pieces, each with its lines indented. -/
def indented (l : List Char) : List Char := (splitlinesKeep l).flatMap ("  ".toList ++ ·)

theorem ended {l : List Char} (h : l.getLast? = some '\n') : ∃ w, l = w ++ ['\n'] := by
  have hne : l ≠ [] := by rintro rfl; cases h
  refine ⟨l.dropLast, ?_⟩
  rw [List.getLast?_eq_some_getLast hne] at h
  injection h with h
  rw [← h]
  exact (List.dropLast_concat_getLast hne).symm

theorem indented_ended {l : List Char} (h : l.getLast? = some '\n') : (indented l).getLast? = some '\n' := by
  obtain ⟨w, rfl⟩ := ended h
  obtain ⟨front, z, hs⟩ := split_break w.length w [] (Nat.le_refl _)
  unfold indented splitlinesKeep
  rw [hs []]
  show (List.flatMap _ (front ++ [z ++ ['\n']])).getLast? = _
  rw [List.flatMap_append, List.flatMap_cons, List.flatMap_nil, List.append_nil, ← List.append_assoc, ← List.append_assoc, List.getLast?_concat]

theorem split_flatten : ∀ ls : List (List Char), (∀ l ∈ ls, l.getLast? = some '\n') → (splitlinesKeep ls.flatten).flatMap ("  ".toList ++ ·) = (ls.map indented).flatten
  | [], _ => rfl
  | l :: ls, h => by
    obtain ⟨w, rfl⟩ := ended (h l (.head _))
    have ih := split_flatten ls fun x hx => h x (.tail _ hx)
    obtain ⟨front, z, hs⟩ := split_break w.length w [] (Nat.le_refl _)
    rw [List.map_cons, List.flatten_cons, List.flatten_cons, ← ih]
    unfold indented splitlinesKeep
    rw [hs [], List.append_assoc]
    show List.flatMap _ (splitlinesKeepAux (w ++ '\n' :: ls.flatten) []) = _
    rw [hs ls.flatten]
    simp [splitlinesKeepAux]

theorem join_indented : ∀ {l : List (List Char)}, l ≠ [] → "  ".toList ++ join "  ".toList l = l.flatMap ("  ".toList ++ ·)
  | [], h => absurd rfl h
  | [x], _ => by simp [join]
  | x :: y :: l, _ => by
    have := join_indented (l := y :: l) (by simp)
    rw [List.flatMap_cons, ← this]
    simp [join]

/-! ### Lists of texts -/

theorem pairs_self {α : Type} {R : α → α → Prop} (h : ∀ a, R a a) (l : List α) : Pairwise₂ R l l := by
  refine ⟨rfl, fun x hx => ?_⟩
  induction l with
  | nil => cases hx
  | cons a l ih =>
    rcases List.mem_cons.mp hx with rfl | hx
    · exact h a
    · exact ih hx

theorem pairs_one {α β : Type} {R : α → β → Prop} {a : α} {b : β} (h : R a b) : Pairwise₂ R [a] [b] :=
  ⟨rfl, fun x hx => by rcases List.mem_cons.mp hx with rfl | hx; exact h; cases hx⟩

theorem pairs_append {α β : Type} {R : α → β → Prop} {l m : List α} {l' m' : List β} (h : Pairwise₂ R l l') (h' : Pairwise₂ R m m') :
    Pairwise₂ R (l ++ m) (l' ++ m') := by
  refine ⟨by rw [List.length_append, List.length_append, h.1, h'.1], fun x hx => ?_⟩
  rw [List.zip_append h.1] at hx
  rcases List.mem_append.mp hx with hx | hx
  · exact h.2 x hx
  · exact h'.2 x hx

theorem told_self (l : List String) : Pairwise₂ Rearranged l l := pairs_self rearranged_self l

/-! ### What is printed about a file -/

theorem nprint_rearranged {cfg : Config} {a b : String} (h : Rearranged (a ++ "\n") (b ++ "\n")) : Pairwise₂ Rearranged (nprint cfg a) (nprint cfg b) := by
  unfold nprint
  split
  · exact told_self []
  · exact pairs_one h

theorem vprint_rearranged {cfg : Config} {a b : String} (h : Rearranged (a ++ "\n") (b ++ "\n")) : Pairwise₂ Rearranged (vprint cfg a) (vprint cfg b) := by
  unfold vprint
  split
  · exact pairs_one h
  · exact told_self []

theorem printIncomp_relined (cfg : Config) (path : String) {a b : String} (h : Relined a b) : Pairwise₂ Rearranged (printIncomp cfg path a) (printIncomp cfg path b) := by
  have hl := h.length
  unfold printIncomp
  split
  · exact told_self []
  · apply nprint_rearranged
    rw [show a.length = a.toList.length from rfl, show b.length = b.toList.length from rfl, hl]
    have key : ∀ pre : String, Rearranged (pre ++ a ++ "\n") (pre ++ b ++ "\n") := fun pre => by
      have := h.within pre.toList ['\n']
      have e : ∀ x : String, String.ofList (pre.toList ++ x.toList ++ ['\n']) = pre ++ x ++ "\n" := fun x => by
        apply String.toList_injective
        simp
      rwa [e, e] at this
    split
    · have := key ("File with incompatible versions: " ++ path ++ "\n  ")
      simpa only [String.append_assoc] using this
    · exact key _

theorem endsWith_concat (w : List Char) : endsWith ['\n'] (w ++ ['\n']) = true := by
  simp [endsWith, startsWith]

theorem outputDefault_relined (cfg : Config) (path : String) (m : Req) {a b : String} (h : Relined a b) :
    Pairwise₂ Rearranged (outputDefault cfg path a m) (outputDefault cfg path b m) := by
  rcases h with rfl | ⟨ls, ls', hp, hl, ha, hb⟩
  · exact told_self _
  by_cases h0 : ls = []
  · subst h0
    rw [hp.symm.eq_nil] at hb
    rw [String.toList_injective (ha.trans hb.symm)]
    exact told_self _
  · have form : ∀ {x : String} {ls : List (List Char)}, ls ≠ [] → (∀ l ∈ ls, l.getLast? = some '\n') → x.toList = ls.flatten →
        outputDefault cfg path x m = vprint cfg (String.ofList (padRight 12 (reqString m).toList ++ [' '] ++ path.toList ++ ('\n' :: (ls.map indented).flatten))) := by
      intro x ls h0 hl hx
      have hne : ls.flatten ≠ [] := by
        cases ls with
        | nil => exact absurd rfl h0
        | cons l ls =>
          obtain ⟨w, rfl⟩ := ended (hl l (.head _))
          simp
      have hs : "\n  ".toList ++ join "  ".toList (splitlinesKeep x.toList) = '\n' :: (ls.map indented).flatten := by
        rw [hx, ← split_flatten ls hl, ← join_indented (splitlinesKeep_ne hne)]
        rfl
      have hlast : ∃ w, (ls.map indented).flatten = w ++ ['\n'] := by
        obtain ⟨ms, l, rfl⟩ : ∃ ms l, ls = ms ++ [l] := ⟨ls.dropLast, ls.getLast h0, (List.dropLast_concat_getLast h0).symm⟩
        obtain ⟨w, hw⟩ := ended (indented_ended (hl l (by simp)))
        exact ⟨(ms.map indented).flatten ++ w, by simp [hw]⟩
      obtain ⟨w, hw⟩ := hlast
      unfold outputDefault
      rw [if_pos (by rw [hx]; exact List.length_pos_iff.mpr hne)]
      simp only [hs]
      rw [if_pos (by rw [hw]; exact endsWith_concat ('\n' :: w))]
    rw [form h0 hl ha, form (fun h => h0 (by subst h; exact hp.eq_nil)) (fun l h => hl l (hp.mem_iff.mpr h)) hb]
    apply vprint_rearranged
    refine ⟨padRight 12 (reqString m).toList ++ [' '] ++ path.toList ++ ['\n'], ['\n'], ls.map indented, ls'.map indented, hp.map _, ?_, ?_, ?_⟩
    · intro l hl'
      obtain ⟨x, hx, rfl⟩ := List.mem_map.mp hl'
      exact indented_ended (hl x hx)
    · simp
    · simp

theorem outputResult_relined (cfg : Config) (path : String) (m : Req) {a b : String} (h : Relined a b) :
    Pairwise₂ Rearranged (outputResult cfg path a m) (outputResult cfg path b m) := by
  unfold outputResult
  split
  · exact outputDefault_relined cfg path m h
  · unfold outputParsable
    refine pairs_append (l := [a]) (l' := [b]) (pairs_one ?_) (told_self _)
    have := h.within [] []
    simpa using this

/-! ### The loop over the files -/

/-- The same result, with the lines of its text in another order. -/
def Refiled : FileOut → FileOut → Prop
  | .error e, .error e' => e = e'
  | .ok none, .ok none => True
  | .ok (some r), .ok (some r') => ∃ t, r' = { r with text := t } ∧ Relined r.text t
  | _, _ => False

/-- The same variables, except for what was printed. -/
def Reacc (a a' : ProcAcc) : Prop := ∃ x, a' = { a with out := x } ∧ Pairwise₂ Rearranged a.out x

theorem step_reacc (cfg : Config) {a a' : ProcAcc} (h : Reacc a a') (r : ProcRes) {t : String} (ht : Relined r.text t) :
    Reacc (procStep cfg a (some r)) (procStep cfg a' (some { r with text := t })) := by
  obtain ⟨x, rfl, hx⟩ := h
  have hlen : t.length = r.text.length := ht.length.symm
  unfold procStep
  simp only
  cases r.mins with
  | none => exact ⟨_, rfl, pairs_append hx (printIncomp_relined cfg _ ht)⟩
  | some m =>
    have ho : Pairwise₂ Rearranged (a.out ++ (if !cfg.onlyShowViolations || decide (r.text.length > 0) then outputResult cfg r.path r.text m else []))
        (x ++ (if !cfg.onlyShowViolations || decide (t.length > 0) then outputResult cfg r.path t m else [])) := by
      refine pairs_append hx ?_
      rw [hlen]
      split
      · exact outputResult_relined cfg _ _ ht
      · exact told_self []
    simp only
    cases combineVersions cfg.ignoreIncomp a.mins m with
    | ok _ => exact ⟨_, rfl, ho⟩
    | error _ => exact ⟨_, rfl, pairs_append ho (printIncomp_relined cfg _ ht)⟩

theorem loop_reacc (cfg : Config) : ∀ {rs rs' : List FileOut} {a a' : ProcAcc}, Pairwise₂ Refiled rs rs' → Reacc a a' →
    Reacc (procLoop cfg a rs).1 (procLoop cfg a' rs').1 ∧ (procLoop cfg a' rs').2 = (procLoop cfg a rs).2
  | [], [], _, _, _, h => ⟨h, rfl⟩
  | [], _ :: _, _, _, h, _ => by cases h.1
  | _ :: _, [], _, _, h, _ => by cases h.1
  | r :: rs, r' :: rs', a, a', hr, h => by
    have h0 : Refiled r r' := hr.2 (r, r') (.head _)
    have ht : Pairwise₂ Refiled rs rs' := ⟨Nat.succ.inj hr.1, fun x hx => hr.2 x (.tail _ hx)⟩
    match r, r', h0 with
    | .error e, .error _, rfl => exact ⟨h, rfl⟩
    | .ok none, .ok none, _ => exact loop_reacc cfg (rs := rs) (rs' := rs') ht h
    | .ok (some r), .ok (some _), ⟨t, rfl, hx⟩ => exact loop_reacc cfg (rs := rs) (rs' := rs') ht (step_reacc cfg h r hx)

theorem firstError_refiled : ∀ {rs rs' : List FileOut}, Pairwise₂ Refiled rs rs' → firstError rs' = firstError rs
  | [], [], _ => rfl
  | [], _ :: _, h => by cases h.1
  | _ :: _, [], h => by cases h.1
  | r :: rs, r' :: rs', hr => by
    have h0 : Refiled r r' := hr.2 (r, r') (.head _)
    have ht : Pairwise₂ Refiled rs rs' := ⟨Nat.succ.inj hr.1, fun x hx => hr.2 x (.tail _ hx)⟩
    match r, r', h0 with
    | .error e, .error _, rfl => rfl
    | .ok none, .ok none, _ => exact firstError_refiled (rs := rs) (rs' := rs') ht
    | .ok (some r), .ok (some _), _ => exact firstError_refiled (rs := rs) (rs' := rs') ht

/-- The same error, or variables that differ in what was printed only. -/
def Reend : Except Err ProcAcc → Except Err ProcAcc → Prop
  | .ok a, .ok a' => Reacc a a'
  | .error e, .error e' => e = e'
  | _, _ => False

theorem end_reacc' (cfg : Config) {a a' : ProcAcc} (e : Option Err) (h : Reacc a a') : Reend (procEnd cfg (a, e)) (procEnd cfg (a', e)) := by
  obtain ⟨x, rfl, hp⟩ := h
  unfold procEnd
  cases e with
  | none => exact ⟨x, rfl, hp⟩
  | some e => cases e <;> first | exact rfl | exact ⟨_, rfl, pairs_append hp (told_self _)⟩

theorem end_reacc (cfg : Config) {p p' : ProcAcc × Option Err} (h : Reacc p.1 p'.1) (he : p'.2 = p.2) : Reend (procEnd cfg p) (procEnd cfg p') := by
  obtain ⟨a, e⟩ := p
  obtain ⟨a', e'⟩ := p'
  have he : e' = e := he
  subst he
  exact end_reacc' cfg e' h

theorem mainRun_refiled (cfg : Config) (versions : Bool) {rs rs' : List FileOut} (h : Pairwise₂ Refiled rs rs') :
    (∃ e, mainRun cfg versions rs = .error e ∧ mainRun cfg versions rs' = .error e) ∨
    ∃ out out' code, mainRun cfg versions rs = .ok (out, code) ∧ mainRun cfg versions rs' = .ok (out', code) ∧ Pairwise₂ Rearranged out out' := by
  unfold mainRun
  rw [h.1]
  by_cases h0 : rs'.length = 0
  · rw [if_pos h0, if_pos h0]
    exact .inr ⟨_, _, _, rfl, rfl, told_self _⟩
  · rw [if_neg h0, if_neg h0]
    have h0 : Reacc ProcAcc.init ProcAcc.init := ⟨_, rfl, told_self _⟩
    have hl := loop_reacc (localConfig cfg) h h0
    have he : Reend (if (localConfig cfg).processes = 1 then processSeq (localConfig cfg) rs else processPar (localConfig cfg) rs)
        (if (localConfig cfg).processes = 1 then processSeq (localConfig cfg) rs' else processPar (localConfig cfg) rs') := by
      split
      · unfold processSeq
        rw [firstError_refiled h]
        split
        · exact end_reacc _ h0 rfl
        · exact end_reacc _ hl.1 hl.2
      · exact end_reacc _ hl.1 hl.2
    revert he
    generalize (if (localConfig cfg).processes = 1 then processSeq (localConfig cfg) rs else processPar (localConfig cfg) rs) = x
    generalize (if (localConfig cfg).processes = 1 then processSeq (localConfig cfg) rs' else processPar (localConfig cfg) rs') = y
    intro he
    match x, y, he with
    | .error e, .error _, rfl => exact .inl ⟨e, rfl, rfl⟩
    | .ok a, .ok _, ⟨o, rfl, ho⟩ =>
      have hr : report cfg versions { a with out := o } = report cfg versions a := rfl
      simp only [hr]
      cases report cfg versions a with
      | error e => exact .inl ⟨e, rfl, rfl⟩
      | ok q => exact .inr ⟨_, _, _, rfl, rfl, pairs_append ho (told_self _)⟩

/-! ### One file -/

theorem distinct_perm {l l' : List String} (h : l.Perm l') : (distinct l).Perm (distinct l') := by
  rw [List.perm_ext_iff_of_nodup (distinct_nodup _) (distinct_nodup _)]
  intro x
  rw [distinct_mem, distinct_mem, h.mem_iff]

variable {env : Env} {o : List String → List String} (hp : ∀ l, (env.order l).Perm l) (ho : ∀ l, (o l).Perm l)
include hp ho

theorem lines_perm {s : S} {x : List String} (hx : s.out.Perm x) : (outputLines env s).Perm (outputLines (env.listing o) (s.with x)) := by
  unfold outputLines
  refine (sortOutputLines_perm _ _).trans (List.Perm.trans ?_ (sortOutputLines_perm _ _).symm)
  show List.Perm (if env.cfg.printVisits then s.out else env.order (distinct s.out)) (if env.cfg.printVisits then x else o (distinct x))
  split
  · exact hx
  · exact (hp _).trans ((distinct_perm hx).trans (ho _).symm)

omit hp ho in
theorem join_lines : ∀ {l : List (List Char)}, l ≠ [] → join ['\n'] l ++ ['\n'] = (l.map (· ++ ['\n'])).flatten
  | [], h => absurd rfl h
  | [x], _ => by simp [join]
  | x :: y :: l, _ => by
    have := join_lines (l := y :: l) (by simp)
    rw [List.map_cons, List.flatten_cons, ← this]
    simp [join]

theorem text_relined {s : S} {x : List String} (hx : s.out.Perm x) : Relined (outputText env s) (outputText (env.listing o) (s.with x)) := by
  have h := (lines_perm hp ho hx).map String.toList
  unfold outputText
  revert h
  generalize (outputLines env s).map String.toList = l
  generalize (outputLines (env.listing o) (s.with x)).map String.toList = l'
  intro h
  have hlen : (join ['\n'] l).length = (join ['\n'] l').length := by
    by_cases h0 : l = []
    · subst h0; rw [h.symm.eq_nil]
    · have e := congrArg List.length (join_lines h0)
      have e' := congrArg List.length (join_lines (l := l') (fun h1 => h0 (by subst h1; exact h.eq_nil)))
      have := (h.map (· ++ ['\n'])).flatten.length_eq
      simp only [List.length_append, List.length_cons, List.length_nil] at e e'
      omega
  simp only [hlen]
  split
  · rename_i hpos
    have h0 : l ≠ [] := by rintro rfl; rw [← hlen] at hpos; exact absurd hpos (by simp [join])
    refine .inr ⟨l.map (· ++ ['\n']), l'.map (· ++ ['\n']), h.map _, ?_, ?_, ?_⟩
    · intro m hm
      obtain ⟨w, _, rfl⟩ := List.mem_map.mp hm
      exact List.getLast?_concat
    · rw [String.toList_ofList, join_lines h0]
    · rw [String.toList_ofList, join_lines (fun h1 => h0 (by subst h1; exact h.eq_nil))]
  · rename_i hpos
    have e : join ['\n'] l = [] := List.length_eq_zero_iff.mp (by omega)
    have e' : join ['\n'] l' = [] := List.length_eq_zero_iff.mp (by omega)
    rw [e, e']
    exact .inl rfl

theorem analyse_refiled (node : Node) : Refiled (analyse env node) (analyse (env.listing o) node) := by
  have ht := tour_mixes hp ho node S.init S.init.out (.refl _)
  unfold analyse
  revert ht
  show Shuffled _ (tour (env.listing o) node S.init) → _
  cases tour env node S.init with
  | error e =>
    cases tour (env.listing o) node S.init with
    | ok t => exact False.elim
    | error e' => rintro rfl; exact rfl
  | ok t =>
    cases tour (env.listing o) node S.init with
    | error e => exact False.elim
    | ok t' =>
      rintro ⟨x, hx, rfl⟩
      simp only [minimumVersions_listing]
      have hm := minimumVersions_mixes (env := env) t x hx
      revert hm
      cases minimumVersions env t with
      | ok q =>
        cases minimumVersions env (t.with x) with
        | error e => exact False.elim
        | ok q' =>
          obtain ⟨u, m⟩ := q
          obtain ⟨u', m'⟩ := q'
          rintro ⟨rfl, y, hy, rfl⟩
          exact ⟨_, rfl, text_relined hp ho hy⟩
      | error e =>
        cases minimumVersions env (t.with x) with
        | ok q => exact False.elim
        | error e' =>
          rintro rfl
          cases e <;> first | exact rfl | exact ⟨_, rfl, .inl rfl⟩

/-! ### C99 -/

omit hp ho in
theorem Refiled.same {x y : FileOut} (h : Refiled x y) : SameFile x y := by
  match x, y, h with
  | .error _, .error _, h => exact h
  | .ok none, .ok none, _ => trivial
  | .ok (some r), .ok (some _), ⟨t, rfl, ht⟩ =>
    have := ht.within [] []
    exact ⟨t, rfl, by simpa using this⟩

/-- C99: for one file, the results are the same except for the order of the lines of its text. -/
theorem C99_file (node : Node) : SameFile (analyse env node) (analyse (env.listing o) node) := (analyse_refiled hp ho node).same

/-- The lines a file gives rise to: those of the state in which its analysis ends. -/
def LinesOf (env : Env) (node : Node) (l : List String) : Prop := ∃ s t m, tour env node S.init = .ok s ∧ minimumVersions env s = .ok (t, m) ∧ l = t.out

omit hp ho in
theorem sortLines_eq {cfg : Config} {l l' : List String} (h : l.Perm l') (hk : ∀ f, sortKey cfg = some f → ∀ a ∈ l, ∀ b ∈ l, f a = f b → a = b) :
    sortOutputLines cfg l = sortOutputLines cfg l' := by
  unfold sortOutputLines
  unfold sortKey at hk
  split
  · rename_i hf
    rw [hf] at hk
    simp only at hk ⊢
    split
    · rename_i hv
      exact sort_key_eq (f := fun a => sortLineColumn a.toList) h (hk _ (by rw [if_pos hv]))
    · exact sort_eq_of_perm leStr_preord h (fun _ _ _ _ => leStr_antisymm)
  · rename_i hf
    rw [hf] at hk
    exact sort_key_eq (f := fun a => sortLineColumnParsable a.toList) h (hk _ rfl)

theorem text_eq {s : S} {x : List String} (hx : s.out.Perm x) (hk : ∀ f, sortKey env.cfg = some f → ∀ a ∈ s.out, ∀ b ∈ s.out, f a = f b → a = b) :
    outputText (env.listing o) (s.with x) = outputText env s := by
  have : outputLines (env.listing o) (s.with x) = outputLines env s := by
    unfold outputLines
    show sortOutputLines env.cfg (if env.cfg.printVisits then x else o (distinct x)) = sortOutputLines env.cfg (if env.cfg.printVisits then s.out else env.order (distinct s.out))
    split
    · exact (sortLines_eq hx hk).symm
    · refine (sortLines_eq ((hp _).trans ((distinct_perm hx).trans (ho _).symm)) fun f hf a ha b hb => hk f hf a ?_ b ?_).symm
      · exact distinct_mem.mp ((hp _).mem_iff.mp ha)
      · exact distinct_mem.mp ((hp _).mem_iff.mp hb)
  unfold outputText
  rw [this]

/-- C99: the results of a file are the same if the sort key tells its lines apart. -/
theorem C99_file_exact (node : Node) (hk : ∀ f l, sortKey env.cfg = some f → LinesOf env node l → ∀ a ∈ l, ∀ b ∈ l, f a = f b → a = b) :
    analyse (env.listing o) node = analyse env node := by
  have ht := tour_mixes hp ho node S.init S.init.out (.refl _)
  unfold analyse
  revert ht
  show Shuffled _ (tour (env.listing o) node S.init) → _
  cases htour : tour env node S.init with
  | error e =>
    cases tour (env.listing o) node S.init with
    | ok t => exact False.elim
    | error e' => rintro rfl; rfl
  | ok t =>
    cases tour (env.listing o) node S.init with
    | error e => exact False.elim
    | ok t' =>
      rintro ⟨x, hx, rfl⟩
      simp only [minimumVersions_listing]
      have hm := minimumVersions_mixes (env := env) t x hx
      revert hm
      cases hmin : minimumVersions env t with
      | ok q =>
        cases minimumVersions env (t.with x) with
        | error e => exact False.elim
        | ok q' =>
          obtain ⟨u, m⟩ := q
          obtain ⟨u', m'⟩ := q'
          rintro ⟨rfl, y, hy, rfl⟩
          simp only [text_eq hp ho hy fun f hf => hk f _ hf ⟨t, u, m', htour, hmin, rfl⟩]
          rfl
      | error e =>
        cases minimumVersions env (t.with x) with
        | ok q => exact False.elim
        | error e' => rintro rfl; cases e <;> rfl

omit hp ho

/-- The host enumerates sets in another order. -/
def Host.enumerating (h : Host) (o : List String → List String) : Host := { h with order := o }

/-- C99: `detect` gives the same result. -/
theorem C99_detect (cfg : Config) (h : Host) (o : List String → List String) (hp : ∀ l, (h.order l).Perm l) (ho : ∀ l, (o l).Perm l)
    (path : String) (node : Node) (toks : List Tok) :
    detectSource cfg (Host.enumerating h o) path node toks = detectSource cfg h path node toks := by
  have hmake : Env.make cfg (Host.enumerating h o) path toks = (Env.make cfg h path toks).listing o := rfl
  have hp : ∀ l, ((Env.make cfg h path toks).order l).Perm l := hp
  unfold detectSource visitSource
  rw [hmake]
  generalize Env.make cfg h path toks = env at hp
  cases badPath cfg path with
  | true => rfl
  | false =>
    simp only [Bool.false_eq_true, if_false, minimumVersions_listing]
    have ht := tour_mixes hp ho node S.init S.init.out (.refl _)
    revert ht
    show Shuffled _ (tour (env.listing o) node S.init) → _
    cases tour env node S.init with
    | error e =>
      cases tour (env.listing o) node S.init with
      | ok t => exact False.elim
      | error e' => rintro rfl; rfl
    | ok t =>
      cases tour (env.listing o) node S.init with
      | error e => exact False.elim
      | ok t' =>
        rintro ⟨x, hx, rfl⟩
        dsimp only
        have hm := minimumVersions_mixes (env := env) t x hx
        revert hm
        cases minimumVersions env t with
        | error e =>
          cases minimumVersions env (t.with x) with
          | ok q => exact False.elim
          | error e' => rintro rfl; rfl
        | ok q =>
          cases minimumVersions env (t.with x) with
          | error e => exact False.elim
          | ok q' =>
            obtain ⟨u, m⟩ := q
            obtain ⟨u', m'⟩ := q'
            rintro ⟨rfl, y, hy, rfl⟩
            dsimp only
            rw [minimumVersions_listing]
            have hm := minimumVersions_mixes (env := env) u y hy
            revert hm
            cases minimumVersions env u with
            | error e =>
              cases minimumVersions env (u.with y) with
              | ok q => exact False.elim
              | error e' => rintro rfl; rfl
            | ok q =>
              cases minimumVersions env (u.with y) with
              | error e => exact False.elim
              | ok q' => rintro ⟨h, _⟩; exact congrArg _ h

/-- The world in which each file is analysed with sets enumerated in another order. -/
def World.enumerating (w : World) (o : List Char → List String → List String) : World := { w with host := fun q => Host.enumerating (w.host q) (o q) }

theorem individual_refiled (cfg : Config) (h : Host) (o : List String → List String) (hp : ∀ l, (h.order l).Perm l) (ho : ∀ l, (o l).Perm l) (path : String) (p : ParseOut) :
    (processIndividual cfg (Host.enumerating h o) path p).1 = (processIndividual cfg h path p).1 ∧
      Refiled (processIndividual cfg h path p).2 (processIndividual cfg (Host.enumerating h o) path p).2 := by
  cases p with
  | notPython => exact ⟨rfl, trivial⟩
  | failed t => exact ⟨rfl, t, rfl, .inl rfl⟩
  | syntaxError e => exact ⟨rfl, "", rfl, .inl rfl⟩
  | ok node toks =>
    unfold processIndividual
    dsimp only
    split
    · exact ⟨rfl, rfl⟩
    · exact ⟨rfl, analyse_refiled (env := Env.make cfg h path toks) hp ho node⟩

theorem zip_maps {α β γ : Type} (f : α → β) (g : α → γ) (R : β → γ → Prop) (h : ∀ a, R (f a) (g a)) : ∀ l : List α, Pairwise₂ R (l.map f) (l.map g)
  | [] => ⟨rfl, fun _ h => absurd h List.not_mem_nil⟩
  | a :: l => pairs_append (l := [f a]) (l' := [g a]) (pairs_one (h a)) (zip_maps f g R h l)

/-- **C99**: runs in which sets are enumerated in different orders (as with other hash seeds) end the same way and print the same, except
for the order of lines in the texts of files. -/
theorem C99_program (w : World) (o : List Char → List String → List String) (hp : ∀ q l, ((w.host q).order l).Perm l) (ho : ∀ q l, (o q l).Perm l)
    (argv : List String) : SameRun (program w argv) (program (World.enumerating w o) argv) := by
  have key := fun cfg q => individual_refiled cfg (w.host q) (o q) (hp q) (ho q) (String.ofList q) (w.parse q)
  unfold program
  show SameRun _ (match parseArgs w.args argv (Config.init w.args.cpus) with
    | .error s => _
    | .ok p => match mainPaths w.fs p.cfg w.rounds (p.paths.map String.toList) with
      | .error e => _ | .ok none => _ | .ok (some paths) => _)
  cases parseArgs w.args argv (Config.init w.args.cpus) with
  | error s => exact rfl
  | ok p =>
    dsimp only
    cases mainPaths w.fs p.cfg w.rounds (p.paths.map String.toList) with
    | error e => exact rfl
    | ok r =>
      cases r with
      | none => trivial
      | some paths =>
        have h1 : ((World.enumerating w o).results p.cfg paths).map Prod.fst = (w.results p.cfg paths).map Prod.fst := by
          unfold World.results
          rw [List.map_map, List.map_map]
          exact List.map_congr_left fun q _ => (key _ q).1
        have h2 : Pairwise₂ Refiled ((w.results p.cfg paths).map Prod.snd) (((World.enumerating w o).results p.cfg paths).map Prod.snd) := by
          unfold World.results
          rw [List.map_map, List.map_map]
          exact zip_maps _ _ _ (fun q => (key (localConfig p.cfg) q).2) paths
        dsimp only
        rcases mainRun_refiled p.cfg p.versions h2 with ⟨e, h, h'⟩ | ⟨out, out', code, h, h', hout⟩
        · rw [h, h']; exact rfl
        · rw [h, h']
          exact ⟨h1.symm, rfl, pairs_append (told_self _) hout⟩

/-- **C99**: if lines are sorted as texts, runs in which sets are enumerated in different orders are the same. -/
theorem C99_program_plain (w : World) (o : List Char → List String → List String) (hp : ∀ q l, ((w.host q).order l).Perm l) (ho : ∀ q l, (o q l).Perm l)
    (argv : List String) (hc : ∀ p, parseArgs w.args argv (Config.init w.args.cpus) = .ok p → p.cfg.format = .default ∧ (p.cfg.verbose ≤ 2 ∨ p.cfg.printVisits = true)) :
    program (World.enumerating w o) argv = program w argv := by
  have key : ∀ cfg : Config, cfg.format = .default → (cfg.verbose ≤ 2 ∨ cfg.printVisits = true) → ∀ q,
      processIndividual cfg (Host.enumerating (w.host q) (o q)) (String.ofList q) (w.parse q) = processIndividual cfg (w.host q) (String.ofList q) (w.parse q) := by
    intro cfg hf hv q
    cases w.parse q with
    | ok node toks =>
      unfold processIndividual
      dsimp only
      split
      · rfl
      · refine congrArg (Prod.mk []) (C99_file_exact (env := Env.make cfg (w.host q) (String.ofList q) toks) (hp q) (ho q) node fun f l hk => ?_)
        unfold sortKey at hk
        rw [show (Env.make cfg (w.host q) (String.ofList q) toks).cfg = cfg from rfl, hf] at hk
        simp only at hk
        split at hk
        · rename_i h
          simp only [gt_iff_lt, Bool.and_eq_true, decide_eq_true_eq, Bool.not_eq_eq_eq_not, Bool.not_true] at h
          rcases hv with hv | hv
          · omega
          · rw [hv] at h; cases h.2
        · cases hk
    | _ => rfl
  unfold program
  show (match parseArgs w.args argv (Config.init w.args.cpus) with
    | .error s => _
    | .ok p => match mainPaths w.fs p.cfg w.rounds (p.paths.map String.toList) with
      | .error e => _ | .ok none => _ | .ok (some paths) => _) = _
  cases hpa : parseArgs w.args argv (Config.init w.args.cpus) with
  | error s => rfl
  | ok p =>
    dsimp only
    cases mainPaths w.fs p.cfg w.rounds (p.paths.map String.toList) with
    | error e => rfl
    | ok r =>
      cases r with
      | none => rfl
      | some paths =>
        have hl : (localConfig p.cfg).format = .default ∧ ((localConfig p.cfg).verbose ≤ 2 ∨ (localConfig p.cfg).printVisits = true) := by
          unfold localConfig
          split
          · exact hc p hpa
          · exact hc p hpa
        have : (World.enumerating w o).results p.cfg paths = w.results p.cfg paths := by
          unfold World.results
          exact List.map_congr_left fun q _ => key _ hl.1 hl.2 q
        dsimp only
        rw [this]

/-- `import ab, ba` and `ab = ba = 1` below: the lines that say that both modules are ignored have the same letters. -/
def anagrams : Node := prog [nd .body .import 1 [nd .names (.alias "ab" none) 1 [], nd .names (.alias "ba" none) 1 []],
  nd .body .assign 2 [nd .targets (.name "ab" .store) 2 [], nd .targets (.name "ba" .store) 2 [], nd .value (.const (.int 1)) 2 []]]

/-- Sets, with their last element first. -/
def downwards (l : List String) : List String := sort (fun a b => leStr b a) l

/-- Example of `C99_file`: with another order of sets, the two lines are exchanged. -/
theorem C99_witness : (∀ l, ((exampleEnv (verboseCfg 4)).order l).Perm l) ∧ (∀ l, (downwards l).Perm l) ∧
    analyse (exampleEnv (verboseCfg 4)) anagrams = .ok (some
      { path := "a.py", mins := some ⟨some ⟨0, 0⟩, some ⟨0, 0⟩⟩, novermin := [], bps := [], maybeAnnotations := false
        text := "L2: Ignoring module 'ab' because it's user-defined!\nL2: Ignoring module 'ba' because it's user-defined!\n" }) ∧
    analyse ((exampleEnv (verboseCfg 4)).listing downwards) anagrams = .ok (some
      { path := "a.py", mins := some ⟨some ⟨0, 0⟩, some ⟨0, 0⟩⟩, novermin := [], bps := [], maybeAnnotations := false
        text := "L2: Ignoring module 'ba' because it's user-defined!\nL2: Ignoring module 'ab' because it's user-defined!\n" }) := by
  exact ⟨fun l => .refl l, fun l => sort_perm l, by decide +kernel, by decide +kernel⟩

/-- Example of `C99_program_plain`: a run over a file with a `nonlocal` statement. -/
theorem C99_witness_run : (∀ q l, ((exampleWorld.host q).order l).Perm l) ∧
    (∀ p, parseArgs exampleWorld.args ["-t=3.0-", "a.py"] (Config.init exampleWorld.args.cpus) = .ok p → p.cfg.format = .default ∧ (p.cfg.verbose ≤ 2 ∨ p.cfg.printVisits = true)) ∧
    ∃ files out, program (World.enumerating exampleWorld fun _ => downwards) ["-t=3.0-", "a.py"] = .exit files out 0 := by
  obtain ⟨-, h2, -, -, h5, -⟩ := C66_witness
  have hc : ∀ p, parseArgs exampleWorld.args ["-t=3.0-", "a.py"] (Config.init exampleWorld.args.cpus) = .ok p → p.cfg.format = .default ∧ (p.cfg.verbose ≤ 2 ∨ p.cfg.printVisits = true) := by
    intro p hp
    cases h2.args.symm.trans hp
    exact ⟨rfl, .inl (by decide)⟩
  refine ⟨fun q l => .refl l, hc, ?_⟩
  rw [C99_program_plain exampleWorld (fun _ => downwards) (fun q l => .refl l) (fun _ l => sort_perm l) _ hc]
  exact h5

end Vermin.Props
