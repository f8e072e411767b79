import Verif.Lemmas.Visitor
/-
`__is_dict` recognises exactly the expressions that are dictionaries.
-/
namespace Vermin
open Py V Spec

theorem constructIn_construct {env : Env} {I : S → Prop} {n : Node} {f : Flag} (h : ConstructIn env I n f) : Construct env f n := by
  cases f <;> first | exact h | exact h.1

theorem constructIn_mono {env : Env} {I J : S → Prop} (hIJ : ∀ s, I s → J s) {n : Node} {f : Flag} (h : ConstructIn env I n f) : ConstructIn env J n f := by
  cases f with
  | longv2 => obtain ⟨h1, s, h2, h3⟩ := h; exact ⟨h1, s, hIJ _ h2, h3⟩
  | ellipsisOutOfSlices => obtain ⟨h1, s, h2, h3⟩ := h; exact ⟨h1, s, hIJ _ h2, h3⟩
  | moduleDirFunc => obtain ⟨h1, s, h2, h3⟩ := h; exact ⟨h1, s, hIJ _ h2, h3⟩
  | moduleGetattrFunc => obtain ⟨h1, s, h2, h3⟩ := h; exact ⟨h1, s, hIJ _ h2, h3⟩
  | fstringsSelfDoc => obtain ⟨h1, s, h2, h3⟩ := h; exact ⟨h1, s, hIJ _ h2, h3⟩
  | dictUnion => obtain ⟨h1, s, l, r, h2, h3⟩ := h; exact ⟨h1, s, l, r, hIJ _ h2, h3⟩
  | dictUnionMerge => obtain ⟨h1, s, l, r, h2, h3⟩ := h; exact ⟨h1, s, l, r, hIJ _ h2, h3⟩
  | unionTypes => obtain ⟨h1, s, l, r, h2, h3⟩ := h; exact ⟨h1, s, l, r, hIJ _ h2, h3⟩
  | builtinGenericTypeAnnotations => obtain ⟨h1, s, s', s2, t, h2, h3, h4, h5⟩ := h; exact ⟨h1, s, s', s2, t, hIJ _ h2, hIJ _ h3, hIJ _ h4, h5⟩
  | maybeAnnotations =>
    refine ⟨h.1, fun hk => ?_⟩
    obtain ⟨s, s', t, h2, h3, h4⟩ := h.2 hk
    exact ⟨s, s', t, hIJ _ h2, hIJ _ h3, h4⟩
  | _ => exact h

theorem isDict_kind (vs : Dict String String) (e : Node) : isDict vs e = isDictStep vs e (dictInfos vs e.kids) := by
  cases e with | mk i ks => unfold isDict dictInfo; rfl

theorem dictInfos_map (res : Dict String String) : ∀ ks : List Node, dictInfos res ks = ks.map fun k => (k, dictInfo res k)
  | [] => rfl
  | k :: ks => by unfold dictInfos; rw [dictInfos_map res ks]; rfl

theorem dictInfo_kids (res : Dict String String) (n : Node) : (dictInfo res n).kids = n.kids.map fun k => (k.fld, isDict res k) := by
  cases n with
  | mk i ks =>
    unfold dictInfo
    show (dictInfos res ks).map _ = ks.map _
    rw [dictInfos_map, List.map_map]
    rfl

theorem kidDicts_field (res : Dict String String) (n : Node) (f : Fld) :
    kidDicts (dictInfos res n.kids) f = match n.field f with
      | some k => k.kids.map fun c => (c.fld, isDict res c)
      | none => [] := by
  unfold kidDicts Node.field
  rw [dictInfos_map, List.find?_map]
  have : ((fun k : Node × DictInfo => decide (k.1.fld = f)) ∘ fun k => (k, dictInfo res k)) = fun k => decide (k.fld = f) := rfl
  rw [this]
  cases n.kids.find? fun k => decide (k.fld = f) with
  | none => rfl
  | some k => exact dictInfo_kids res k

theorem item_iff {α : Type} {l : List α} {i : Int} {x : α} : Item l i x ↔ i < l.length ∧ pyIndex l i = some x := by
  constructor
  · rintro ⟨a, b, rfl, rfl | rfl⟩
    · refine ⟨by simp only [List.length_append, List.length_cons]; omega, ?_⟩
      unfold pyIndex
      rw [if_pos (by omega)]
      simp
    · refine ⟨by simp only [List.length_append, List.length_cons]; omega, ?_⟩
      unfold pyIndex
      rw [if_neg (by omega), if_pos (by simp only [List.length_append, List.length_cons]; omega)]
      have : (-(b.length + 1 : Int) + ((a ++ x :: b).length : Nat)).toNat = a.length := by
        simp only [List.length_append, List.length_cons]; omega
      rw [this]
      simp
  · rintro ⟨hi, h⟩
    unfold pyIndex at h
    have key : ∀ k, l[k]? = some x → l = l.take k ++ x :: l.drop (k + 1) ∧ k < l.length := by
      intro k hk
      obtain ⟨hlt, hx⟩ := List.getElem?_eq_some_iff.mp hk
      refine ⟨?_, hlt⟩
      rw [← hx]
      simp
    split at h
    · obtain ⟨h1, h2⟩ := key _ h
      refine ⟨_, _, h1, .inl ?_⟩
      rw [List.length_take]; omega
    · split at h
      · obtain ⟨h1, h2⟩ := key _ h
        refine ⟨_, _, h1, .inr ?_⟩
        rw [List.length_drop]; omega
      · cases h

theorem pyIndex_map {α β : Type} (f : α → β) (l : List α) (i : Int) : pyIndex (l.map f) i = (pyIndex l i).map f := by
  unfold pyIndex
  simp only [List.length_map, List.getElem?_map]
  split
  · rfl
  · split <;> rfl

theorem isIndex_iff {c : Const} {i : Int} : indexOf c = some i ↔ IsIndex c i := by
  unfold IsIndex
  cases c with
  | int j => simp [indexOf]
  | bool b => cases b <;> simp [indexOf, eq_comm]
  | _ => simp [indexOf]

theorem isDict_lambda {res : Dict String String} {e f b : Node} (hk : e.kind = .call) (hf : e.field .func = some f) (hl : f.kind = .lambda)
    (hb : f.field .lamBody = some b) : isDict res e = isDict res b := by
  rw [isDict_kind]
  unfold isDictStep
  rw [hk]
  have hn : ¬ (e.field .func).bind Node.nameId = some "dict" := by
    rw [hf]; show ¬ f.nameId = _
    unfold Node.nameId; rw [hl]; exact nofun
  dsimp only
  rw [if_neg hn]
  have : lambdaKids e (dictInfos res e.kids) = f.kids.map fun c => (c.fld, isDict res c) := by
    unfold lambdaKids
    rw [hf]
    rw [if_pos (show Option.any (fun f : Node => decide (f.kind = .lambda)) (some f) = true from decide_eq_true hl), kidDicts_field, hf]
  rw [this, List.find?_map]
  have hb' : f.kids.find? ((fun k : Fld × Except Err Bool => decide (k.1 = Fld.lamBody)) ∘ fun c => (c.fld, isDict res c)) = some b := hb
  rw [hb']
  rfl

theorem filter_elements (res : Dict String String) (l : Node) :
    ((l.kids.map fun c => (c.fld, isDict res c)).filter fun k => decide (k.1 = .elts) || decide (k.1 = .values)).map (·.2) = (Elements l).map (isDict res) := by
  unfold Elements
  rw [List.filter_map, List.map_map]
  rfl

theorem subscriptIndex_iff {e : Node} {i : Int} : subscriptIndex e = some i ↔ HasIndex e i := by
  unfold subscriptIndex HasIndex
  have hval : ∀ {n : Node} {c : Const}, n.constVal = some c ↔ n.kind = .const c := by
    intro n c
    unfold Node.constVal
    split
    · rename_i d h; rw [h]; simp
    · rename_i h
      exact ⟨nofun, fun h' => absurd h' (h _)⟩
  cases e.field .slice with
  | none => simp
  | some sl =>
    dsimp only
    by_cases hk : sl.kind = .index
    · rw [if_pos hk]
      constructor
      · intro h
        split at h
        · rename_i j hj
          cases h
          obtain ⟨v, hv, hc⟩ := Option.bind_eq_some_iff.mp hj
          exact ⟨sl, rfl, .inr ⟨hk, v, hv, hval.mp hc⟩⟩
        · cases h
      · rintro ⟨_, h1, ⟨c, h2, -⟩ | ⟨-, v, h2, h3⟩⟩
        · cases h1; rw [hk] at h2; cases h2
        · cases h1
          rw [h2, show (some v).bind Node.constVal = some (.int i) from hval.mpr h3]
    · rw [if_neg hk]
      constructor
      · intro h
        obtain ⟨c, hc, hi⟩ := Option.bind_eq_some_iff.mp h
        exact ⟨sl, rfl, .inl ⟨c, hval.mp hc, isIndex_iff.mp hi⟩⟩
      · rintro ⟨_, h1, ⟨c, h2, h3⟩ | ⟨h2, -⟩⟩
        · cases h1
          rw [hval.mpr h2]
          exact isIndex_iff.mpr h3
        · cases h1; exact absurd h2 hk

theorem isDict_item {res : Dict String String} {e : Node} {i : Int} (hk : e.kind = .subscript) (hi : HasIndex e i) :
    isDict res e = isDictAt ((((e.field .value).map Elements).getD []).map (isDict res)) i := by
  rw [isDict_kind]
  unfold isDictStep
  rw [hk]
  dsimp only
  rw [subscriptIndex_iff.mpr hi, kidDicts_field]
  cases e.field .value with
  | none => rfl
  | some l => exact congrArg (isDictAt · i) (filter_elements res l)

/-- Dictionaries are recognised. -/
theorem isDict_of {res : Dict String String} {e : Node} (h : DictValue res e) : isDict res e = .ok true := by
  induction h with
  | display h => rw [isDict_kind]; unfold isDictStep; rw [h]
  | var h1 h2 =>
    obtain ⟨c, hc⟩ := h1
    rw [isDict_kind]; unfold isDictStep; rw [hc]
    exact congrArg _ (decide_eq_true h2)
  | call h => rw [isDict_kind]; unfold isDictStep; rw [h.1]; exact if_pos h.2
  | lambda h1 h2 h3 h4 _ ih => rw [isDict_lambda h1 h2 h3 h4, ih]
  | item h1 h4 h5 h6 _ ih =>
    rw [isDict_item h1 h4, h5]
    obtain ⟨hi, hx⟩ := item_iff.mp h6
    unfold isDictAt
    rw [if_pos (by simpa using hi), show ((some _).map Elements).getD [] = Elements _ from rfl, pyIndex_map, hx]
    exact ih

theorem sizeOf_kid : ∀ {ks : List Node} {k : Node}, k ∈ ks → sizeOf k < sizeOf ks
  | x :: ks, k, h => by
    rcases List.mem_cons.mp h with rfl | h
    · simp only [List.cons.sizeOf_spec]; omega
    · have := sizeOf_kid h
      simp only [List.cons.sizeOf_spec]; omega
theorem sizeOf_in {n k : Node} (h : k ∈ n.kids) : sizeOf k < sizeOf n := by
  cases n with
  | mk i ks =>
    have : sizeOf k < sizeOf ks := sizeOf_kid h
    simp only [Node.mk.sizeOf_spec]; omega

/-- Only dictionaries are recognised. -/
theorem dictValue_of {res : Dict String String} {e : Node} (h : isDict res e = .ok true) : DictValue res e := by
  have h0 := h
  rw [isDict_kind] at h
  unfold isDictStep at h
  split at h
  · rename_i l hk; exact .display hk
  · rename_i x c hk
    injection h with h
    exact .var ⟨c, hk⟩ (of_decide_eq_true h)
  · rename_i hk
    split at h
    · rename_i hd; exact .call ⟨hk, hd⟩
    · cases hf : e.field .func with
      | none =>
        unfold lambdaKids at h
        rw [hf] at h
        cases h
      | some f =>
        by_cases hl : f.kind = .lambda
        · cases hb : f.field .lamBody with
          | some b =>
            have := field_mem hf
            have := field_mem hb
            have := sizeOf_in (field_mem hf)
            have := sizeOf_in (field_mem hb)
            rw [isDict_lambda hk hf hl hb] at h0
            exact .lambda hk hf hl hb (dictValue_of h0)
          | none =>
            exfalso
            unfold lambdaKids at h
            rw [hf, if_pos (show Option.any (fun f : Node => decide (f.kind = .lambda)) (some f) = true from decide_eq_true hl), kidDicts_field, hf, List.find?_map] at h
            have hb' : f.kids.find? ((fun k : Fld × Except Err Bool => decide (k.1 = Fld.lamBody)) ∘ fun c => (c.fld, isDict res c)) = none := hb
            rw [hb'] at h
            cases h
        · exfalso
          unfold lambdaKids at h
          rw [hf, if_neg (show ¬ Option.any (fun f : Node => decide (f.kind = .lambda)) (some f) = true from fun hc => hl (of_decide_eq_true hc))] at h
          cases h
  · rename_i hk
    split at h
    · rename_i i hi
      have hci := subscriptIndex_iff.mp hi
      rw [isDict_item hk hci] at h0
      unfold isDictAt at h0
      split at h0
      · rename_i hlt
        rw [pyIndex_map] at h0
        cases hv : e.field .value with
        | none =>
          rw [hv] at h0 hlt
          simp only [Option.map_none, Option.getD_none] at h0 hlt
          unfold pyIndex at h0
          simp only [List.length_nil] at h0
          split at h0
          · rename_i heq; split at heq <;> (try split at heq) <;> cases heq
          · cases h0
        | some l =>
          rw [hv] at h0 hlt
          simp only [Option.map_some, Option.getD_some] at h0 hlt
          cases hx : pyIndex (Elements l) i with
          | none => rw [hx] at h0; cases h0
          | some x =>
            rw [hx] at h0
            replace h0 : isDict res x = .ok true := h0
            have hit : Item (Elements l) i x := item_iff.mpr ⟨by simpa using hlt, hx⟩
            have hxm : x ∈ l.kids := by
              obtain ⟨a, b, hab, _⟩ := hit
              have : x ∈ Elements l := by rw [hab]; simp
              exact (List.mem_filter.mp this).1
            have := sizeOf_in (field_mem hv)
            have := sizeOf_in hxm
            exact .item hk hci hv hit (dictValue_of h0)
      · cases h0
    · cases h
  · cases h
termination_by sizeOf e

theorem isDict_iff {res : Dict String String} {e : Node} : isDict res e = .ok true ↔ DictValue res e := ⟨dictValue_of, isDict_of⟩

end Vermin
