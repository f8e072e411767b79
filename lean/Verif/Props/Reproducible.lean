import Verif.Props.Minimum
/-
C39 exactly: when the text of a file depends on the order in which a set is enumerated.
-/
namespace Vermin.Props
open Vermin Vermin.Py Vermin.Spec

/-- Sorting is stable: elements that are not told apart stay in their order. -/
theorem insertSorted_stable {α : Type} {le : α → α → Bool} {p : α → Bool} (hp : ∀ a b, p a = true → p b = true → le a b = true) (x : α) :
    ∀ l : List α, (insertSorted le x l).filter p = (x :: l).filter p
  | [] => rfl
  | y :: ys => by
    rw [insertSorted]
    split
    · rfl
    · rename_i hle
      rw [List.filter_cons, insertSorted_stable hp x ys]
      cases hx : p x with
      | false => simp [List.filter_cons, hx]
      | true =>
        cases hy : p y with
        | false => simp [List.filter_cons, hx, hy]
        | true => exact absurd (hp x y hx hy) hle

theorem sort_stable {α : Type} {le : α → α → Bool} {p : α → Bool} (hp : ∀ a b, p a = true → p b = true → le a b = true) :
    ∀ l : List α, (sort le l).filter p = l.filter p
  | [] => rfl
  | x :: xs => by
    rw [sort, insertSorted_stable hp, List.filter_cons, List.filter_cons, sort_stable hp xs]

/-- Lines without line feeds can be read off from the text. -/
theorem join_inj : ∀ {l l' : List (List Char)}, l.length = l'.length → (∀ w ∈ l, '\n' ∉ w) → (∀ w ∈ l', '\n' ∉ w) →
    join ['\n'] l = join ['\n'] l' → l = l'
  | [], [], _, _, _, _ => rfl
  | [a], [b], _, _, _, h => by
    simp only [join] at h
    rw [h]
  | a :: c :: l, b :: d :: l', hl, h1, h2, h => by
    simp only [join] at h
    have key : ∀ {u v x y : List Char}, '\n' ∉ u → '\n' ∉ v → u ++ '\n' :: x = v ++ '\n' :: y → u = v ∧ x = y := by
      intro u
      induction u with
      | nil =>
        intro v x y _ hv he
        cases v with
        | nil => injection he with _ he; exact ⟨rfl, he⟩
        | cons w v => injection he with he _; exact absurd (he ▸ List.mem_cons_self ..) hv
      | cons w u ih =>
        intro v x y hu hv he
        cases v with
        | nil => injection he with he _; exact absurd (he ▸ List.mem_cons_self ..) hu
        | cons z v =>
          injection he with e1 e2
          obtain ⟨r1, r2⟩ := ih (fun h => hu (List.mem_cons_of_mem _ h)) (fun h => hv (List.mem_cons_of_mem _ h)) e2
          exact ⟨by rw [e1, r1], r2⟩
    have hk := key (h1 a (by simp)) (h2 b (by simp)) (x := join ['\n'] (c :: l)) (y := join ['\n'] (d :: l')) (by simpa using h)
    rw [hk.1, join_inj (l := c :: l) (l' := d :: l') (by simpa using hl) (fun w hw => h1 w (List.mem_cons_of_mem _ hw))
      (fun w hw => h2 w (List.mem_cons_of_mem _ hw)) hk.2]

/-- The text is the same for all enumeration orders. -/
def Reproducible (env : Env) (s : S) : Prop :=
  ∀ o o' : List String → List String, (∀ l, (o l).Perm l) → (∀ l, (o' l).Perm l) →
    outputText (Env.withOrder env o) s = outputText (Env.withOrder env o') s

theorem outputLines_key {env : Env} {f : String → Nat} (hf : sortKey env.cfg = some f) (hv : env.cfg.printVisits = false) (s : S)
    (o : List String → List String) :
    outputLines (Env.withOrder env o) s = sort (fun a b => decide (f a ≤ f b)) (o (distinct s.out)) := by
  unfold outputLines Env.withOrder sortOutputLines
  unfold sortKey at hf
  simp only [hv, Bool.false_eq_true, if_false]
  split
  · rename_i hfm
    rw [hfm] at hf
    simp only [hv, Bool.not_false, Bool.and_true] at hf ⊢
    split
    · rename_i hc
      rw [if_pos hc] at hf
      injection hf with hf
      subst hf; rfl
    · rename_i hc
      rw [if_neg hc] at hf
      cases hf
  · rename_i hfm
    rw [hfm] at hf
    injection hf with hf
    subst hf; rfl

/-- **C39, exactly.** For lines without line feeds and without --dump: the text is the same for all orders if and only if
the key that lines are sorted by, if there is one, tells all of them apart. -/
theorem C39_exact {env : Env} {s : S} (hv : env.cfg.printVisits = false) (hn : ∀ x ∈ s.out, '\n' ∉ x.toList) :
    Reproducible env s ↔ ∀ f, sortKey env.cfg = some f → ∀ a ∈ s.out, ∀ b ∈ s.out, f a = f b → a = b := by
  constructor
  · intro h f hf a ha b hb hab
    have hids := h id List.reverse (fun _ => List.Perm.refl _) List.reverse_perm
    have hmem : ∀ {o : List String → List String}, (∀ l, (o l).Perm l) → ∀ w ∈ (outputLines (Env.withOrder env o) s).map String.toList, '\n' ∉ w := by
      intro o ho w hw
      obtain ⟨x, hx, rfl⟩ := List.mem_map.mp hw
      rw [outputLines_key hf hv, mem_sort, (ho _).mem_iff, distinct_mem] at hx
      exact hn x hx
    have hlen : ((outputLines (Env.withOrder env id) s).map String.toList).length =
        ((outputLines (Env.withOrder env List.reverse) s).map String.toList).length := by
      simp only [List.length_map, outputLines_key hf hv, length_sort, List.length_reverse, id]
    have hjoin : join ['\n'] ((outputLines (Env.withOrder env id) s).map String.toList) =
        join ['\n'] ((outputLines (Env.withOrder env List.reverse) s).map String.toList) := by
      unfold outputText at hids
      simp only at hids
      replace hids := congrArg String.toList hids
      simp only [String.toList_ofList] at hids
      split at hids <;> split at hids
      · exact List.append_cancel_right hids
      · rename_i _ h2
        have : join ['\n'] ((outputLines (Env.withOrder env List.reverse) s).map String.toList) = [] := by
          cases hj : join ['\n'] ((outputLines (Env.withOrder env List.reverse) s).map String.toList) with
          | nil => rfl
          | cons _ _ => rw [hj] at h2; simp at h2
        rw [this] at hids
        simp at hids
      · rename_i h1 _
        have : join ['\n'] ((outputLines (Env.withOrder env id) s).map String.toList) = [] := by
          cases hj : join ['\n'] ((outputLines (Env.withOrder env id) s).map String.toList) with
          | nil => rfl
          | cons _ _ => rw [hj] at h1; simp at h1
        rw [this] at hids
        simp at hids
      · exact hids
    have hl := join_inj hlen (hmem fun _ => List.Perm.refl _) (hmem List.reverse_perm) hjoin
    have hlines : outputLines (Env.withOrder env id) s = outputLines (Env.withOrder env List.reverse) s :=
      List.map_inj_right (fun _ _ => String.toList_inj.mp) |>.mp hl
    rw [outputLines_key hf hv, outputLines_key hf hv] at hlines
    replace hlines := congrArg (List.filter fun x => decide (f x = f a)) hlines
    rw [sort_stable, sort_stable, List.filter_reverse] at hlines
    · -- a list without repetitions that is its own reverse has at most one element
      have hnd : ((id (distinct s.out)).filter fun x => decide (f x = f a)).Nodup := (distinct_nodup _).filter _
      have ha' : a ∈ (id (distinct s.out)).filter fun x => decide (f x = f a) :=
        List.mem_filter.mpr ⟨distinct_mem.mpr ha, by simp⟩
      have hb' : b ∈ (id (distinct s.out)).filter fun x => decide (f x = f a) :=
        List.mem_filter.mpr ⟨distinct_mem.mpr hb, by simp [hab]⟩
      simp only [id] at hlines hnd ha' hb'
      generalize (distinct s.out).filter (fun x => decide (f x = f a)) = l at hlines hnd ha' hb'
      cases l with
      | nil => cases ha'
      | cons x xs =>
        cases xs with
        | nil =>
          rw [List.mem_singleton.mp ha', List.mem_singleton.mp hb']
        | cons y ys =>
          have hlast := congrArg List.getLast? hlines
          rw [List.getLast?_reverse] at hlast
          simp only [List.head?_cons] at hlast
          exfalso
          rw [List.getLast?_cons_cons] at hlast
          exact (List.nodup_cons.mp hnd).1 (List.mem_of_getLast? hlast)
    · intro x y hx hy
      simp only [decide_eq_true_eq] at hx hy ⊢
      omega
    · intro x y hx hy
      simp only [decide_eq_true_eq] at hx hy ⊢
      omega
  · intro hk o o' ho ho'
    exact (C39_order_partial (env := Env.withOrder env o') (o := o) ho' ho hk)

/-- Lines that the key tells apart, and the two of `C39_false_collision`, which it does not. -/
theorem C39_witness_exact :
    Reproducible (exampleEnv (verboseCfg 3)) { S.init with out := ["L2 C7: 'os' module requires 2.5, 3.0", "L1: fstrings require !2, 3.6"] } ∧
    ¬ Reproducible (exampleEnv (verboseCfg 3))
      { S.init with out := ["L1 C7: 'dis' module requires 2.5, 3.0", "L1 C7: 'sid' module requires 2.5, 3.0"] } := by
  constructor
  · refine (C39_exact rfl (by decide +kernel)).mpr fun f hf => ?_
    injection hf with hf
    subst hf
    decide +kernel
  · intro h
    exact absurd ((C39_exact rfl (by decide +kernel)).mp h _ rfl) (by decide +kernel)

end Vermin.Props
