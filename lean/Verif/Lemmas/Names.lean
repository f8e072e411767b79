import Verif.Model.Names
import Verif.Spec.Nodes
/-
Walks, and names of attributes.
-/
namespace Vermin
open Py Spec

/-! ### Names of attributes -/

theorem walk_head (n : Node) : ∃ rest, walk n = n :: rest := by
  cases n with
  | mk i ks => exact ⟨_, by simp [walk, levels]; rfl⟩

theorem attrStep_ok {ms : Dict String String} {full : List (Option String)} (h : full ≠ []) (p : Bool) (a : Node) :
    ∃ full', attrStep ms full p a = .ok full' ∧ full' ≠ [] := by
  unfold attrStep
  split
  · exact ⟨_, rfl, by simp [h]⟩
  · exact ⟨_, rfl, by simp [h]⟩
  · exact ⟨_, rfl, by split <;> simp [h]⟩
  · exact ⟨_, rfl, by split <;> simp [h]⟩
  · exact ⟨_, rfl, by split <;> simp [h]⟩
  · split
    · exact ⟨_, rfl, h⟩
    · unfold attrConst
      split
      · exact ⟨_, rfl, by split <;> simp [h]⟩
      · exact ⟨_, rfl, by split <;> simp [h]⟩
      · exact ⟨_, rfl, by split <;> simp [h]⟩
      · cases full with
        | nil => exact absurd rfl h
        | cons f fs => exact ⟨_, rfl, by split <;> simp⟩
      · exact ⟨_, rfl, by split <;> simp [h]⟩
      · exact ⟨_, rfl, h⟩
  · exact ⟨_, rfl, h⟩

theorem attrLoop_ok {ms : Dict String String} : ∀ (l : List Node) (full : List (Option String)) (p : Bool), full ≠ [] →
    ∃ full', attrLoop ms full p l = .ok full'
  | [], full, _, _ => ⟨full, rfl⟩
  | a :: l, full, p, h => by
    obtain ⟨f', h1, h2⟩ := attrStep_ok (ms := ms) h (p || headBuiltin full) a
    obtain ⟨f2, h3⟩ := attrLoop_ok (ms := ms) l f' (p || headBuiltin full) h2
    exact ⟨f2, by simp only [attrLoop, h1, h3]⟩

/-- The name of an attribute is always found. -/
theorem attributeName_ok {ms : Dict String String} {n : Node} {a : String} (h : n.kind = .attribute a) :
    ∃ l, attributeName ms n = .ok l := by
  obtain ⟨rest, hw⟩ := walk_head n
  unfold attributeName
  rw [hw]
  obtain ⟨f, hf⟩ := attrLoop_ok (ms := ms) rest ([] ++ attrNames ms n a) (false || headBuiltin []) (by simp [attrNames])
  have : attrLoop ms [] false (n :: rest) = .ok f := by
    simp only [attrLoop, attrStep, h]; exact hf
  rw [this]
  exact ⟨_, rfl⟩
theorem dottedAttr_ok {ms : Dict String String} {n : Node} {a : String} (h : n.kind = .attribute a) : ∃ d, dottedAttr ms n = .ok d := by
  obtain ⟨l, hl⟩ := attributeName_ok (ms := ms) h
  exact ⟨_, by unfold dottedAttr; rw [hl]⟩

/-! ### Walks -/

theorem mem_mergeLevels {α : Type} {x : α} : ∀ {a b : List (List α)}, x ∈ (mergeLevels a b).flatten ↔ x ∈ a.flatten ∨ x ∈ b.flatten
  | [], b => by simp [mergeLevels]
  | a :: as, [] => by simp [mergeLevels]
  | a :: as, b :: bs => by
    simp only [mergeLevels, List.flatten_cons, List.mem_append, mem_mergeLevels (a := as)]
    constructor
    · rintro ((h | h) | h | h) <;> simp [h]
    · rintro ((h | h) | h | h) <;> simp [h]

mutual
theorem mem_levels {stop : Node → Bool} {x : Node} : ∀ {n : Node}, x ∈ (levels stop n).flatten → In x n
  | .mk i ks, h => by
    unfold levels at h
    split at h
    · cases h
    · simp only [List.flatten_cons, List.mem_append, List.mem_singleton] at h
      rcases h with h | h
      · rw [h]; exact .self _
      · obtain ⟨k, hk, hx⟩ := mem_levelsList h
        exact .kid (n := .mk i ks) hk hx
theorem mem_levelsList {stop : Node → Bool} {x : Node} : ∀ {ks : List Node}, x ∈ (levelsList stop ks).flatten → ∃ k ∈ ks, In x k
  | [], h => by cases h
  | k :: ks, h => by
    unfold levelsList at h
    rcases mem_mergeLevels.mp h with h | h
    · exact ⟨k, by simp, mem_levels h⟩
    · obtain ⟨k', hk, hx⟩ := mem_levelsList h
      exact ⟨k', by simp [hk], hx⟩
end

theorem mem_walk {n x : Node} (h : x ∈ walk n) : In x n := mem_levels h

theorem In.trans {a b c : Node} (h1 : In a b) (h2 : In b c) : In a c := by
  induction h2 with
  | self => exact h1
  | kid hk _ ih => exact .kid hk (ih h1)

theorem field_mem {n k : Node} {f : Fld} (h : n.field f = some k) : k ∈ n.kids := List.mem_of_find?_eq_some h
theorem fields_mem {n k : Node} {f : Fld} (h : k ∈ n.fields f) : k ∈ n.kids := (List.mem_filter.mp h).1

theorem Acting.nameId_iff {a : Node} {x : String} (ht : a.nameId = some x) : ∃ c, a.kind = .name x c := by
  unfold Node.nameId at ht
  split at ht
  · rename_i s c hk; injection ht with ht; exact ⟨c, by rw [hk, ht]⟩
  · cases ht

/-! ### Chains -/

/-- The walk through a chain. -/
theorem chain_loop {ms : Dict String String} {n : Node} {a : String} {bs : List String} (h : Chain n a bs) :
    ∀ full primi, attrLoop ms full primi (walk n) = .ok (full ++ bs.reverse.map some ++ [some (resolveModuleName ms a)]) := by
  induction h with
  | @one n v a b c hn hk hf hv hvk =>
    intro full primi
    obtain ⟨i, ks⟩ := n
    obtain ⟨j, ls⟩ := v
    replace hk : ks = [.mk j ls] := hk
    replace hvk : ls = [] := hvk
    subst hk hvk
    have hw : walk (.mk i [.mk j []]) = [.mk i [.mk j []], .mk j []] := rfl
    have hfld : (Node.mk i [.mk j []]).field .value = some (.mk j []) := by
      unfold Node.field Node.kids
      simp [hf]
    rw [hw]
    unfold attrLoop attrStep
    simp only [hn, attrNames, hfld, Option.bind, Node.nameId, hv]
    unfold attrLoop attrStep
    simp only [hv, attrLoop]
    simp
  | @more n v a b bs hn hk hf hc ih =>
    intro full primi
    obtain ⟨i, ks⟩ := n
    replace hk : ks = [v] := hk
    subst hk
    have hw : walk (.mk i [v]) = .mk i [v] :: walk v := by
      unfold walk
      rw [levels]
      simp only [Bool.false_eq_true, if_false, levelsList, List.flatten_cons, List.singleton_append]
      congr 2
      cases levels (fun _ => false) v <;> rfl
    have hfld : (Node.mk i [v]).field .value = some v := by
      unfold Node.field Node.kids
      simp [hf]
    have hnm : v.nameId = none := by
      unfold Node.nameId
      cases hc <;> rename_i h _ _ _ <;> simp_all
    rw [hw]
    unfold attrLoop attrStep
    simp only [hn, attrNames, hfld, Option.bind, hnm]
    rw [ih]
    simp

theorem chain_name {n : Node} {a : String} {bs : List String} (h : Chain n a bs) (ms : Dict String String) :
    attributeName ms n = .ok (some (resolveModuleName ms a) :: bs.map some) := by
  unfold attributeName
  rw [chain_loop h]
  simp

theorem join_cons (sep x : List Char) (l : List (List Char)) : join sep (x :: l) = x ++ (l.map (sep ++ ·)).flatten := by
  induction l generalizing x with
  | nil => simp [join]
  | cons y l ih => rw [join, ih y]; simp; exact nofun

theorem dotted_text (a : String) (bs : List String) : dotted (some a :: bs.map some) = dottedText a bs := by
  unfold dotted
  have : (some a :: bs.map some).filterMap (fun o => o.map String.toList) = a.toList :: bs.map String.toList := by
    simp [List.filterMap_map, Function.comp_def]
  rw [this, join_cons]
  induction bs generalizing a with
  | nil => simp [dottedText]
  | cons b bs ih =>
    have h := ih (a ++ "." ++ b) (by simp [List.filterMap_map, Function.comp_def])
    unfold dottedText at h ⊢
    rw [List.foldl_cons, ← h]
    congr 1
    simp

theorem chain_dotted {n : Node} {a : String} {bs : List String} (h : Chain n a bs) (ms : Dict String String) :
    dottedAttr ms n = .ok (dottedText (resolveModuleName ms a) bs) := by
  unfold dottedAttr
  rw [chain_name h]
  exact congrArg _ (dotted_text _ _)
theorem chain_attr {n : Node} {a : String} {bs : List String} (h : Chain n a bs) : ∃ b, n.kind = .attribute b := by
  cases h with
  | one h => exact ⟨_, h⟩
  | more h => exact ⟨_, h⟩

end Vermin
