import Verif.Props.Rules
import Verif.Props.Minimum
/-
C90: the rules agree with each other.  What is part of something is not said to be available before it, under every set of
backports.  The checks over the complete tables are evaluations by the kernel, on the numbers that stand for the keys
(`Lemmas/RulesCodes.lean`), lifted to keys and to all sets of backports by lemmas.
-/
namespace Vermin.Props
open Vermin Vermin.Py Vermin.Spec Vermin.Data

/-! ### Sets of backports -/

/-- The backports a rule depends on. -/
def readsOf : RuleVal → List String
  | .const _ => []
  | .bpv n _ => (expandVersions n).map Prod.fst
  | .ifNotBp n _ _ => [n]

theorem go_reads {bps bps' : List String} (d : Req) : ∀ {rs : List BackportRow},
    (∀ x ∈ rs.map Prod.fst, x ∈ bps ↔ x ∈ bps') → bpv.go bps d rs = bpv.go bps' d rs
  | [], _ => rfl
  | r :: rs, h => by
    have hb : bp bps r.1 = bp bps' r.1 := by
      have := h r.1 (by simp)
      simp only [bp]
      rw [Bool.eq_iff_iff, List.contains_iff_mem, List.contains_iff_mem, this]
    rw [bpv.go, bpv.go, hb, go_reads d fun x hx => h x (by simp only [List.map_cons, List.mem_cons]; exact .inr hx)]

theorem eval_reads {bps bps' : List String} : ∀ {v : RuleVal}, (∀ x ∈ readsOf v, x ∈ bps ↔ x ∈ bps') → v.eval bps = v.eval bps'
  | .const _, _ => rfl
  | .bpv _ d, h => go_reads d h
  | .ifNotBp n _ _, h => by
    have := h n (by simp [readsOf])
    have hb : bp bps n = bp bps' n := by
      simp only [bp]
      rw [Bool.eq_iff_iff, List.contains_iff_mem, List.contains_iff_mem, this]
    simp only [RuleVal.eval, hb]

/-- All selections from a list. -/
def subs {α : Type} : List α → List (List α)
  | [] => [[]]
  | x :: xs => subs xs ++ (subs xs).map (x :: ·)

theorem filter_mem_subs {α : Type} (p : α → Bool) : ∀ l : List α, l.filter p ∈ subs l
  | [] => by simp [subs]
  | x :: xs => by
    have := filter_mem_subs p xs
    rw [List.filter_cons, subs]
    split
    · exact List.mem_append.mpr (.inr (List.mem_map_of_mem this))
    · exact List.mem_append.mpr (.inl this)

/-- Whether `u` is satisfied whenever `v` is, under every set of backports. -/
def impliesB (v u : RuleVal) : Bool := (subs (readsOf v ++ readsOf u)).all fun b => weakerB (u.eval b) (v.eval b)

theorem implies_of {v u : RuleVal} (h : impliesB v u = true) (bps : List String) {w : Ver} (hw : Satisfies w (v.eval bps)) :
    Satisfies w (u.eval bps) := by
  have hb := List.all_eq_true.mp h _ (filter_mem_subs (fun x => bps.contains x) (readsOf v ++ readsOf u))
  have hr : ∀ r : RuleVal, (∀ x ∈ readsOf r, x ∈ readsOf v ++ readsOf u) →
      r.eval bps = r.eval ((readsOf v ++ readsOf u).filter fun x => bps.contains x) := by
    intro r hs
    refine eval_reads fun x hx => ?_
    rw [List.mem_filter, List.contains_iff_mem]
    exact ⟨fun h => ⟨hs x hx, h⟩, fun h => h.2⟩
  rw [← hr v fun x hx => by simp [hx], ← hr u fun x hx => by simp [hx]] at hb
  exact satisfies_of_weakerB hb hw

/-! ### Looking up by number -/

/-- A binary tree of entries, by the bits of a remainder. -/
inductive Trie where
  | leaf (l : List (Nat × RuleVal))
  | node (a b : Trie)

def Trie.left : Trie → Trie
  | .leaf _ => .leaf []
  | .node a _ => a
def Trie.right : Trie → Trie
  | .leaf _ => .leaf []
  | .node _ b => b

def Trie.insert (e : Nat × RuleVal) : Nat → Nat → Trie → Trie
  | 0, _, .leaf l => .leaf (e :: l)
  | 0, _, .node a b => .node a b
  | d + 1, h, t => bif Nat.beq (h % 2) 0 then .node (Trie.insert e d (h / 2) t.left) t.right
    else .node t.left (Trie.insert e d (h / 2) t.right)

def bucketFind (c : Nat) : List (Nat × RuleVal) → Option RuleVal
  | [] => none
  | e :: es => bif Nat.beq e.1 c then some e.2 else bucketFind c es

def Trie.find (c : Nat) : Nat → Nat → Trie → Option RuleVal
  | 0, _, .leaf l => bucketFind c l
  | 0, _, .node _ _ => none
  | d + 1, h, t => bif Nat.beq (h % 2) 0 then Trie.find c d (h / 2) t.left else Trie.find c d (h / 2) t.right

def trieOf (es : List (Nat × RuleVal)) : Trie := es.foldl (fun t e => t.insert e 12 (e.1 % 4093)) (.leaf [])
def Trie.get (t : Trie) (c : Nat) : Option RuleVal := t.find c 12 (c % 4093)

/-- The entries of the tables of modules and members, by number. -/
def modCoded : List (Nat × RuleVal) := modReqsCodesChunks.flatten.zip (modReqs.map Prod.snd)
def memCoded : List (Nat × RuleVal) := memReqsCodesChunks.flatten.zip (memReqs.map Prod.snd)
def kwCoded : List (Nat × RuleVal) := kwReqsCodesChunks.flatten.zip (kwReqs.map Prod.snd)
def ownersTrie : Trie := trieOf (modCoded ++ memCoded)

/-- What is found under a number is no weaker than `v`. -/
def storedOk (t : Trie) (e : Nat × RuleVal) : Bool :=
  match t.get e.1 with
  | some u => impliesB u e.2
  | none => false

/-- What is found under a number is implied by `v`. -/
def ownerOk (t : Trie) (v : RuleVal) (c : Nat) : Bool :=
  match t.get c with
  | some u => impliesB v u
  | none => true

/-- The same for everything before a dot. -/
def partsOk (t : Trie) (v : RuleVal) : Nat → Nat → Bool
  | 0, n => Nat.ble n 1
  | fuel + 1, n => bif Nat.ble n 1 then true
    else (bif Nat.beq (n % 1114112) 46 then ownerOk t v (n / 1114112) else true) && partsOk t v fuel (n / 1114112)

/-- The number of the function of a keyword argument. -/
def funcCode : Nat → Nat → Nat
  | 0, n => n
  | fuel + 1, n => bif Nat.beq (n % 1114112) 0 then n / 1114112 else funcCode fuel (n / 1114112)

/-- Whether `v` implies the rules for the name with number `c` and all it is part of. -/
def ownersOk (t : Trie) (v : RuleVal) (c : Nat) : Bool := ownerOk t v c && partsOk t v 100 c

/-- All checks, for one tree. -/
def tablesOk (t : Trie) : Bool :=
  (modCoded ++ memCoded).all (storedOk t) && (modCoded ++ memCoded).all (fun e => ownersOk t e.2 e.1) &&
  kwCoded.all (fun e => ownersOk t e.2 (funcCode 100 e.1)) &&
  decoratorUserFunctions.all (fun e => ownersOk t (.const e.2) (encStr e.1)) &&
  (builtinGenericAnnotationTypes ++ dictUnionSupportedTypes ++ dictUnionMergeSupportedTypes).all
    fun k => ownersOk t (.const (r3 3 9)) (encStr k)

theorem tables_stored : (modCoded ++ memCoded).all (storedOk ownersTrie) = true := by decide +kernel
theorem tables_owners : (modCoded ++ memCoded).all (fun e => ownersOk ownersTrie e.2 e.1) = true := by decide +kernel
theorem tables_keywords : kwCoded.all (fun e => ownersOk ownersTrie e.2 (funcCode 100 e.1)) = true := by decide +kernel
theorem tables_others : (decoratorUserFunctions.all (fun e => ownersOk ownersTrie (.const e.2) (encStr e.1)) &&
    (builtinGenericAnnotationTypes ++ dictUnionSupportedTypes ++ dictUnionMergeSupportedTypes).all
      fun k => ownersOk ownersTrie (.const (r3 3 9)) (encStr k)) = true := by decide +kernel
theorem tables_ok : tablesOk ownersTrie = true := by
  unfold tablesOk
  rw [tables_stored, tables_owners, tables_keywords, Bool.true_and, Bool.true_and, Bool.true_and, tables_others]

/-! ### From numbers to names -/

theorem mem_coded {α β : Type} {f : Nat → α} : ∀ {l : List (α × β)} {cs : List Nat}, l.map Prod.fst = cs.map f →
    ∀ {k : α} {v : β}, (k, v) ∈ l → ∃ c, (c, v) ∈ cs.zip (l.map Prod.snd) ∧ f c = k ∧ c ∈ cs
  | [], _, _, _, _, h => by cases h
  | e :: l, [], he, _, _, _ => by simp at he
  | e :: l, c :: cs, he, k, v, h => by
    simp only [List.map_cons, List.cons.injEq] at he
    rcases List.mem_cons.mp h with h | h
    · refine ⟨c, ?_, ?_, by simp⟩
      · rw [← h]; simp
      · rw [← he.1, ← h]
    · obtain ⟨c', h1, h2, h3⟩ := mem_coded he.2 h
      exact ⟨c', by simp [h1], h2, by simp [h3]⟩

theorem mem_flat {l : List (List Nat)} {ok : Nat → Bool} (h : l.all (·.all ok) = true) {c : Nat} (hc : c ∈ l.flatten) : ok c = true := by
  obtain ⟨x, hx, hc⟩ := List.mem_flatten.mp hc
  exact List.all_eq_true.mp (List.all_eq_true.mp h x hx) c hc

theorem mod_coded {k : String} {v : RuleVal} (h : (k, v) ∈ modReqs) : (encStr k, v) ∈ modCoded := by
  have e : modReqs.map Prod.fst = modReqsCodesChunks.flatten.map decStr := by
    rw [modReqs, List.map_flatten, List.map_flatten, mod_keys]
  obtain ⟨c, h1, rfl, h3⟩ := mem_coded e h
  rw [encStr_decStr (mem_flat mod_ok h3)]; exact h1

theorem mem_coded' {k : String} {v : RuleVal} (h : (k, v) ∈ memReqs) : (encStr k, v) ∈ memCoded := by
  have e : memReqs.map Prod.fst = memReqsCodesChunks.flatten.map decStr := by
    rw [memReqs, List.map_flatten, List.map_flatten, mem_keys]
  obtain ⟨c, h1, rfl, h3⟩ := mem_coded e h
  rw [encStr_decStr (mem_flat mem_ok h3)]; exact h1

theorem funcCode_dec : ∀ {fuel n : Nat} {acc : List Char}, pairOk fuel n = true →
    (decPair fuel n acc).1 = decStr (funcCode fuel n) ∧ digitsOk 100 (funcCode fuel n) = true
  | 0, _, _, h => by simp [pairOk] at h
  | fuel + 1, n, acc, h => by
    unfold pairOk at h
    unfold decPair funcCode
    cases hn : Nat.beq (n % 1114112) 0 with
    | true => rw [hn] at h; exact ⟨rfl, h⟩
    | false =>
      rw [hn] at h
      simp only [cond_false, Bool.and_eq_true] at h ⊢
      exact funcCode_dec h.2

theorem kw_coded {f a : String} {v : RuleVal} (h : ((f, a), v) ∈ kwReqs) : ∃ c, (c, v) ∈ kwCoded ∧ funcCode 100 c = encStr f := by
  have e : kwReqs.map Prod.fst = kwReqsCodesChunks.flatten.map (decPair 100 · []) := by
    rw [kwReqs, List.map_flatten, List.map_flatten, kw_keys]
  obtain ⟨c, h1, h2, h3⟩ := mem_coded e h
  have := funcCode_dec (acc := []) (mem_flat kw_ok h3)
  rw [h2] at this
  refine ⟨c, h1, ?_⟩
  rw [show f = decStr (funcCode 100 c) from this.1, encStr_decStr this.2]

theorem encChars_append (n : Nat) (a b : List Char) : encChars n (a ++ b) = encChars (encChars n a) b := by
  simp [encChars, List.foldl_append]

theorem encChars_snoc (n : Nat) (a : List Char) (c : Char) : encChars n (a ++ [c]) = encChars n a * 1114112 + c.toNat := by
  simp [encChars, List.foldl_append]

theorem toNat_lt (c : Char) : c.toNat < 1114112 := by
  have := c.valid
  simp only [UInt32.isValidChar, Nat.isValidChar] at this
  simp only [Char.toNat]
  omega

theorem encChars_pos : ∀ {s : List Char} {n : Nat}, 1 ≤ n → 1 ≤ encChars n s
  | [], _, h => h
  | c :: s, n, h => by rw [encChars_cons]; exact encChars_pos (by omega)

theorem partsOk_step {t : Trie} {v : RuleVal} {fuel x d : Nat} (hx : 1 ≤ x) (hd : d < 1114112)
    (h : partsOk t v fuel (x * 1114112 + d) = true) :
    ∃ fuel', partsOk t v fuel' x = true ∧ (d = 46 → ownerOk t v x = true) := by
  cases fuel with
  | zero => simp only [partsOk, Nat.ble_eq] at h; omega
  | succ fuel =>
    have h1 : Nat.ble (x * 1114112 + d) 1 = false := by
      cases hb : Nat.ble (x * 1114112 + d) 1 with
      | false => rfl
      | true => rw [Nat.ble_eq] at hb; omega
    have h2 : (x * 1114112 + d) % 1114112 = d := by omega
    have h3 : (x * 1114112 + d) / 1114112 = x := by omega
    rw [partsOk, h1, h2, h3, cond_false, Bool.and_eq_true] at h
    refine ⟨fuel, h.2, ?_⟩
    rintro rfl
    exact h.1

theorem partsOk_owner {t : Trie} {v : RuleVal} {m : Nat} (hm : 1 ≤ m) : ∀ (k : Nat) {rest : List Char}, rest.length = k →
    ∀ {fuel : Nat}, partsOk t v fuel (encChars (m * 1114112 + 46) rest) = true → ownerOk t v m = true
  | 0, rest, hl, fuel, h => by
    obtain rfl := List.length_eq_zero_iff.mp hl
    obtain ⟨_, _, h2⟩ := partsOk_step hm (by decide) h
    exact h2 rfl
  | k + 1, rest, hl, fuel, h => by
    have hne : rest ≠ [] := by rintro rfl; simp at hl
    rw [← List.dropLast_concat_getLast hne, encChars_snoc] at h
    obtain ⟨f, h1, _⟩ := partsOk_step (encChars_pos (by omega)) (toNat_lt _) h
    exact partsOk_owner hm k (by simp [hl]) h1

/-! ### C90 -/

/-- `k` is something in `p`: its name goes on after a dot. -/
def InsideOf (k p : String) : Prop := ∃ rest : String, k = p ++ "." ++ rest

/-- `u` is the rule for `k` or for something `k` is in. -/
def RuleAbove (k : String) (u : RuleVal) : Prop := ∃ p, ((p, u) ∈ modReqs ∨ (p, u) ∈ memReqs) ∧ (p = k ∨ InsideOf k p)

theorem above_of {v : RuleVal} {k : String} (h : ownersOk ownersTrie v (encStr k) = true) {u : RuleVal} (hu : RuleAbove k u)
    (bps : List String) {w : Ver} (hw : Satisfies w (v.eval bps)) : Satisfies w (u.eval bps) := by
  obtain ⟨p, hp, hk⟩ := hu
  rw [ownersOk, Bool.and_eq_true] at h
  have hall := tables_ok
  simp only [tablesOk, Bool.and_eq_true] at hall
  have hown : ownerOk ownersTrie v (encStr p) = true := by
    rcases hk with rfl | ⟨rest, rfl⟩
    · exact h.1
    · refine partsOk_owner (fuel := 100) (encChars_pos (Nat.le_refl 1)) _ (rest := rest.toList) rfl ?_
      have h2 := h.2
      rw [encStr, String.toList_append, String.toList_append, encChars_append, encChars_append] at h2
      exact h2
  have hst : storedOk ownersTrie (encStr p, u) = true := by
    refine List.all_eq_true.mp hall.1.1.1.1 _ (List.mem_append.mpr ?_)
    rcases hp with hp | hp
    · exact .inl (mod_coded hp)
    · exact .inr (mem_coded' hp)
  unfold storedOk at hst
  unfold ownerOk at hown
  cases hg : ownersTrie.get (encStr p) with
  | none => rw [hg] at hst; cases hst
  | some u' =>
    rw [hg] at hst hown
    exact implies_of hst bps (implies_of hown bps hw)

/-- **C90.** Whatever satisfies the rule of a module or a member satisfies the rules of all that it is in, under every set
of backports. -/
theorem C90_members (bps : List String) {k : String} {v u : RuleVal} (h : (k, v) ∈ modReqs ∨ (k, v) ∈ memReqs)
    (hu : RuleAbove k u) {w : Ver} (hw : Satisfies w (v.eval bps)) : Satisfies w (u.eval bps) := by
  have hall := tables_ok
  simp only [tablesOk, Bool.and_eq_true] at hall
  refine above_of (List.all_eq_true.mp hall.1.1.1.2 (encStr k, v) (List.mem_append.mpr ?_)) hu bps hw
  rcases h with h | h
  · exact .inl (mod_coded h)
  · exact .inr (mem_coded' h)

/-- **C90.** Whatever satisfies the rule of a keyword argument satisfies the rules of its function and of all that it is in. -/
theorem C90_kwargs (bps : List String) {f a : String} {v u : RuleVal} (h : ((f, a), v) ∈ kwReqs)
    (hu : RuleAbove f u) {w : Ver} (hw : Satisfies w (v.eval bps)) : Satisfies w (u.eval bps) := by
  have hall := tables_ok
  simp only [tablesOk, Bool.and_eq_true] at hall
  obtain ⟨c, h1, h2⟩ := kw_coded h
  have := List.all_eq_true.mp hall.1.1.2 _ h1
  simp only [h2] at this
  exact above_of this hu bps hw

/-- **C90.** Whatever satisfies the rule of a decorator satisfies the rules of the function it is and of all that it is in. -/
theorem C90_decorators (bps : List String) {k : String} {r : Req} {u : RuleVal} (h : (k, r) ∈ decoratorUserFunctions)
    (hu : RuleAbove k u) {w : Ver} (hw : Satisfies w r) : Satisfies w (u.eval bps) := by
  have hall := tables_ok
  simp only [tablesOk, Bool.and_eq_true] at hall
  exact above_of (v := .const r) (List.all_eq_true.mp hall.1.2 _ h) hu bps hw

/-- **C90.** The types for which `T[..]` or `|` is said to need 3.9 are there in 3.9. -/
theorem C90_types (bps : List String) {k : String} {u : RuleVal}
    (h : k ∈ builtinGenericAnnotationTypes ∨ k ∈ dictUnionSupportedTypes ∨ k ∈ dictUnionMergeSupportedTypes)
    (hu : RuleAbove k u) {w : Ver} (hw : Satisfies w (r3 3 9)) : Satisfies w (u.eval bps) := by
  have hall := tables_ok
  simp only [tablesOk, Bool.and_eq_true] at hall
  refine above_of (v := .const (r3 3 9)) (List.all_eq_true.mp hall.2 _ ?_) hu bps hw
  simp only [List.mem_append]
  rcases h with h | h | h
  · exact .inl (.inl h)
  · exact .inl (.inr h)
  · exact .inr h

/-- **C90.** So every version that satisfies the detected minimum also has all that the modules, members and keyword
arguments which gave rise to it are in. -/
theorem C90_minimum {env : Env} {s s' : S} {m : Req} (htab : env.tables = Tables.std env.cfg)
    (h : minimumVersions env s = .ok (s', m)) {v : Ver} (hv : Satisfies v m) {k : String} {u : RuleVal}
    (hk : (k ∈ s.modules ∧ (env.tables.mod k).isSome = true) ∨ (k ∈ s.members ∧ (env.tables.mem k).isSome = true) ∨
      ∃ a, (k, some a) ∈ s.kwargs ∧ (env.tables.kw (k, some a)).isSome = true)
    (hu : RuleAbove k u) : Satisfies v (u.eval env.cfg.backports) := by
  have hall := ((C32_satisfies h v).mp hv).2
  rcases hk with ⟨h1, h2⟩ | ⟨h1, h2⟩ | ⟨a, h1, h2⟩
  · obtain ⟨r, hr⟩ := Option.isSome_iff_exists.mp h2
    have hs := hall r (.module h1 hr)
    rw [htab] at hr
    simp only [Tables.std] at hr
    obtain ⟨x, hx, rfl⟩ := Option.map_eq_some_iff.mp hr
    exact C90_members env.cfg.backports (.inl ((C13_lookup.1 _ _).mp hx)) hu hs
  · obtain ⟨r, hr⟩ := Option.isSome_iff_exists.mp h2
    have hs := hall r (.member h1 hr)
    rw [htab] at hr
    simp only [Tables.std] at hr
    obtain ⟨x, hx, rfl⟩ := Option.map_eq_some_iff.mp hr
    exact C90_members env.cfg.backports (.inr ((C13_lookup.2.1 _ _).mp hx)) hu hs
  · obtain ⟨r, hr⟩ := Option.isSome_iff_exists.mp h2
    have hs := hall r (.kwarg h1 hr)
    rw [htab] at hr
    simp only [Tables.std] at hr
    obtain ⟨x, hx, rfl⟩ := Option.map_eq_some_iff.mp hr
    exact C90_kwargs env.cfg.backports ((C13_lookup.2.2 _ _).mp hx) hu hs

/-- `unittest.mock.AsyncMock` is in `unittest.mock`; with the backport of `mock` it is said to need 3.6 instead of 3.8. -/
theorem C90_witness : ("unittest.mock.AsyncMock", RuleVal.bpv "mock" (r3 3 8)) ∈ memReqs ∧
    ("unittest.mock", RuleVal.const (r3 3 3)) ∈ modReqs ∧ InsideOf "unittest.mock.AsyncMock" "unittest.mock" ∧
    Satisfies ⟨3, 6⟩ ((RuleVal.bpv "mock" (r3 3 8)).eval ["mock"]) ∧
    ¬ Satisfies ⟨3, 6⟩ ((RuleVal.bpv "mock" (r3 3 8)).eval []) := by
  refine ⟨?_, ?_, ⟨"AsyncMock", by decide⟩, Or.inr ⟨rfl, ⟨3, 6⟩, by decide +kernel, by decide⟩, ?_⟩
  · have hc : memReqs2 ∈ memReqsChunks := by simp only [memReqsChunks, List.mem_cons, true_or, or_true]
    exact List.mem_flatten.mpr ⟨memReqs2, hc, by simp only [memReqs2, List.mem_cons, true_or, or_true]⟩
  · have hc : modReqs1 ∈ modReqsChunks := by simp only [modReqsChunks, List.mem_cons, true_or, or_true]
    exact List.mem_flatten.mpr ⟨modReqs1, hc, by simp only [modReqs1, List.mem_cons, true_or, or_true]⟩
  · have : (RuleVal.bpv "mock" (r3 3 8)).eval [] = r3 3 8 := by decide +kernel
    rw [this]
    rintro (⟨h, _⟩ | ⟨_, m, h, hle⟩)
    · cases h
    · obtain rfl : (⟨3, 8⟩ : Ver) = m := by injection h
      exact absurd hle (by decide)

end Vermin.Props
