import Verif.Lemmas.Tracks
import Verif.Lemmas.Rules
import Verif.Lemmas.Paths
import Verif.Props.Shuffled
import Verif.Props.Texts
import Verif.Props.Layout
import Verif.Props.RulesKeys
/-
C101: names that mean nothing to Vermin do not matter.
-/
namespace Vermin.Props
open Vermin Vermin.Py Vermin.Spec

/-! ### Dotted names -/

theorem join_splitOn (s : List Char) : join ['.'] (splitOn (· == '.') s) = s := by
  induction s with
  | nil => rfl
  | cons c s ih =>
    rw [splitOn]
    split
    · rename_i hc
      cases hs : splitOn (· == '.') s with
      | nil => exact absurd hs (splitOn_ne _ s)
      | cons w ws =>
        rw [hs] at ih
        rw [show join ['.'] ([] :: w :: ws) = [] ++ ['.'] ++ join ['.'] (w :: ws) from rfl, ih, beq_iff_eq.mp hc]
        rfl
    · split
      · rename_i hs; exact absurd hs (splitOn_ne _ s)
      · rename_i w ws hs
        rw [hs] at ih
        cases ws with
        | nil => rw [← ih]; rfl
        | cons v ws => rw [← ih]; rfl

theorem words_free {s w : List Char} (h : w ∈ splitOn (· == '.') s) : '.' ∉ w := fun hd => by
  have := splitOn_free h _ hd
  revert this; decide

variable {c : Config} {ρ : String → String}

theorem renaming_join (hr : Renaming c ρ) : ∀ {l : List (List Char)}, l ≠ [] →
    ρ (String.ofList (Py.join ['.'] l)) = String.ofList (Py.join ['.'] (l.map fun w => (ρ (String.ofList w)).toList))
  | [], h => absurd rfl h
  | [w], _ => by simp [Py.join]
  | w :: v :: l, _ => by
    have ih := renaming_join hr (l := v :: l) (by simp)
    rw [show Py.join ['.'] (w :: v :: l) = w ++ ['.'] ++ Py.join ['.'] (v :: l) from rfl]
    rw [show String.ofList (w ++ ['.'] ++ Py.join ['.'] (v :: l)) = String.ofList w ++ "." ++ String.ofList (Py.join ['.'] (v :: l)) by
      rw [String.ofList_append, String.ofList_append]]
    rw [hr.dotted, ih]
    apply String.toList_inj.mp
    simp [Py.join]

theorem _root_.Vermin.Spec.Renaming.split (hr : Renaming c ρ) (x : String) : splitDots (ρ x) = (splitDots x).map ρ := by
  have h := renaming_join hr (splitOn_ne (· == '.') x.toList)
  rw [join_splitOn, String.ofList_toList] at h
  unfold splitDots
  rw [h, String.toList_ofList, splitOn_join]
  · simp
  · simp [splitOn_ne]
  · intro w hw
    obtain ⟨v, hv, rfl⟩ := List.mem_map.mp hw
    exact hr.word _ (by rw [String.toList_ofList]; exact words_free hv)

/-! ### The order of sets under other names -/

open Classical in
/-- The order of the sets of the renamed program. -/
noncomputable def alsoOrdered (o : List String → List String) (ρ : String → String) (l : List String) : List String :=
  if h : ∃ k : List String, k.map ρ = l then (o h.choose).map ρ else l

theorem alsoOrdered_perm {o : List String → List String} (ho : ∀ l, (o l).Perm l) (ρ : String → String) (l : List String) : (alsoOrdered o ρ l).Perm l := by
  unfold alsoOrdered
  split
  · rename_i h
    exact ((ho _).map ρ).trans (.of_eq h.choose_spec)
  · exact .refl _

theorem alsoOrdered_map (o : List String → List String) (hi : ∀ x y, ρ x = ρ y → x = y) (l : List String) : alsoOrdered o ρ (l.map ρ) = (o l).map ρ := by
  unfold alsoOrdered
  have h : ∃ k : List String, k.map ρ = l.map ρ := ⟨l, rfl⟩
  rw [dif_pos h]
  have : h.choose = l := (List.map_inj_right (fun x y => hi x y)).mp h.choose_spec
  rw [this]

/-! ### The tables -/

theorem mem_foldl_set {α β : Type} [DecidableEq α] {e : α × β} : ∀ {l : List (α × β)} {d : Dict α β},
    e ∈ l.foldl (fun d e => Dict.set d e.1 e.2) d → e ∈ l ∨ e ∈ d
  | [], _, h => .inr h
  | x :: l, d, h => by
    rcases mem_foldl_set (l := l) h with h | h
    · exact .inl (.tail _ h)
    · rcases List.mem_cons.mp h with rfl | h
      · exact .inl (.head _)
      · exact .inr ((List.mem_filter.mp h).1)

theorem mem_of_display {α β : Type} [DecidableEq α] {l : List (α × β)} {x : α} {r : β} (h : Dict.get? (dictDisplay l) x = some r) : (x, r) ∈ l := by
  rcases mem_foldl_set (Dict.mem_of_get? h) with h | h
  · exact h
  · cases h

theorem known_key {β : Type} {l : List (String × β)} {x : String} {r : β} (h : Dict.get? (dictDisplay l) x = some r) : x ∈ l.map (·.1) :=
  List.mem_map.mpr ⟨_, mem_of_display h, rfl⟩

theorem _root_.Vermin.Spec.Renaming.neutral (hr : Renaming c ρ) (h : Host) (path : String) (toks : List Tok) :
    Neutral (Env.make c h path toks) (alsoOrdered h.order ρ) ρ := by
  have kn : ∀ x, x ∈ knownNames → ρ x = x := hr.known
  simp only [knownNames, List.mem_append] at kn
  refine { inj := fun h => hr.inj _ _ h, nil := hr.empty, dot := hr.dotted, split := hr.split, word := ?_, mod := ?_, mem := ?_, deco := ?_, kw := ?_,
           errors := ?_, encodings := ?_, generic := ?_, union := ?_, merge := ?_, excluded := ?_, excludedKw := ?_,
           order := fun l => alsoOrdered_map h.order hr.inj l }
  · exact fun w hw => kn w (by simp [hw])
  · intro x r hx
    simp only [Env.make, Tables.std] at hx
    obtain ⟨q, hq, _⟩ := Option.map_eq_some_iff.mp hx
    exact kn x (by have := known_key hq; simp only [this, true_or, or_true])
  · intro x r hx
    simp only [Env.make, Tables.std] at hx
    obtain ⟨q, hq, _⟩ := Option.map_eq_some_iff.mp hx
    exact kn x (by have := known_key hq; simp only [this, true_or, or_true])
  · intro x r hx
    exact kn x (by have := known_key hx; simp only [this, true_or, or_true])
  · intro f k r hx
    cases k with
    | none => cases hx
    | some k =>
      simp only [Env.make, Tables.std] at hx
      obtain ⟨q, hq, _⟩ := Option.map_eq_some_iff.mp hx
      have hm := mem_of_display hq
      have h1 : f ∈ Data.kwReqs.map (·.1.1) := List.mem_map.mpr ⟨_, hm, rfl⟩
      have h2 : k ∈ Data.kwReqs.map (·.1.2) := List.mem_map.mpr ⟨_, hm, rfl⟩
      exact ⟨kn f (by simp only [h1, true_or, or_true]), congrArg some (kn k (by simp only [h2, true_or, or_true]))⟩
  · intro x r hx
    exact kn x (by have := known_key hx; simp only [this, true_or, or_true])
  · intro x r hx
    exact kn x (by have := known_key hx; simp only [this, true_or, or_true])
  · exact fun x hx => kn x (by simp only [show x ∈ Data.builtinGenericAnnotationTypes from hx, true_or, or_true])
  · exact fun x hx => kn x (by simp only [show x ∈ Data.dictUnionSupportedTypes from hx, true_or, or_true])
  · exact fun x hx => kn x (by simp only [show x ∈ Data.dictUnionMergeSupportedTypes from hx, true_or, or_true])
  · intro x
    exact contains_kept (fun h => hr.inj _ _ h) hr.excluded x
  · intro f k
    show c.exclusions.contains _ = c.exclusions.contains _
    rw [Bool.eq_iff_iff, List.contains_iff_mem, List.contains_iff_mem]
    cases k with
    | none =>
      constructor <;> intro hx
      · rwa [hr.inj _ _ (hr.excludedKw (ρ f) "None" hx).1] at hx
      · rwa [(hr.excludedKw f "None" hx).1]
    | some k =>
      constructor <;> intro hx
      · have := hr.excludedKw (ρ f) (ρ k) hx
        rw [Option.map_some, show kwText (some (ρ k)) = ρ k from rfl, hr.inj _ _ this.1, hr.inj _ _ this.2] at hx
        exact hx
      · have := hr.excludedKw f k hx
        rw [Option.map_some, show kwText (some (ρ k)) = ρ k from rfl, this.1, this.2]
        exact hx

/-! ### The theorem -/

theorem S.init_renamed : S.init.renamed ρ [] [] = S.init := rfl

/-- The renamed program, with sets in the order of the renamed sets. -/
theorem detect_renamed (hr : Renaming c ρ) (h : Host) (path : String) (toks : List Tok) (n : Node) (hf : c.hasFeature "fstring-self-doc" = false) :
    detectSource c (Host.enumerating h (alsoOrdered h.order ρ)) path (n.renamed ρ) toks = detectSource c h path n toks := by
  have hn := hr.neutral h path toks
  have he : Env.make c (Host.enumerating h (alsoOrdered h.order ρ)) path toks = (Env.make c h path toks).listing (alsoOrdered h.order ρ) := rfl
  unfold detectSource visitSource
  rw [he]
  cases badPath c path with
  | true => rfl
  | false =>
    simp only [Bool.false_eq_true, if_false]
    have k := (tour_tracks hn hf n).run S.init [] []
    rw [S.init_renamed] at k
    revert k
    cases tour (Env.make c h path toks) n S.init with
    | error x =>
      cases tour _ (n.renamed ρ) S.init with
      | error x' => rintro rfl; rfl
      | ok t' => exact False.elim
    | ok s =>
      cases tour _ (n.renamed ρ) S.init with
      | error x' => exact False.elim
      | ok s' =>
        rintro ⟨lc, o, rfl⟩
        dsimp only
        have k := minimumVersions_tracks hn s lc o
        revert k
        cases minimumVersions (Env.make c h path toks) s with
        | error x =>
          cases minimumVersions _ (s.renamed ρ lc o) with
          | error x' => rintro rfl; rfl
          | ok t' => exact False.elim
        | ok t =>
          cases minimumVersions _ (s.renamed ρ lc o) with
          | error x' => exact False.elim
          | ok t' =>
            obtain ⟨t, m⟩ := t
            obtain ⟨t', m'⟩ := t'
            rintro ⟨_, lc, o, rfl⟩
            have k := minimumVersions_tracks hn t lc o
            dsimp only
            revert k
            cases minimumVersions (Env.make c h path toks) t with
            | error x =>
              cases minimumVersions _ (t.renamed ρ lc o) with
              | error x' => rintro rfl; rfl
              | ok t' => exact False.elim
            | ok t =>
              cases minimumVersions _ (S.renamed ρ _ lc o) with
              | error x' => exact False.elim
              | ok t' => rintro ⟨hm, _⟩; exact congrArg Except.ok hm

/-- **C101.** A program and the program with other names, that mean nothing to Vermin, require the same: the same versions, or the same error. -/
theorem C101_renamed (c : Config) (h : Host) (path : String) (toks : List Tok) (n : Node) (ρ : String → String) (hr : Renaming c ρ)
    (ho : ∀ l, (h.order l).Perm l) (hf : c.hasFeature "fstring-self-doc" = false) :
    detectSource c h path (n.renamed ρ) toks = detectSource c h path n toks := by
  rw [← C99_detect c h _ ho (alsoOrdered_perm ho ρ)]
  exact detect_renamed hr h path toks n hf

/-- C101: also if the text, its layout and the comments change with the names, as far as layout does not matter (C88). -/
theorem C101_rewritten (c : Config) (h h' : Host) (path : String) (toks toks' : List Tok) (n : Node) (ρ : String → String) (g : Layout) (hr : Renaming c ρ)
    (ho : ∀ l, (h.order l).Perm l) (hf : c.hasFeature "fstring-self-doc" = false) (ho' : h'.order = h.order) (hu : ∀ u v, g.uid u = g.uid v → u = v)
    (hs : ∀ k, In k (n.renamed ρ) → SameSource (Env.make c h path toks) (Env.make c h' path toks') k (k.moved g)) :
    detectSource c h' path ((n.renamed ρ).moved g) toks' = detectSource c h path n toks :=
  (C88_layout c h h' path toks toks' (n.renamed ρ) g ho' hu hs).trans (C101_renamed c h path toks n ρ hr ho hf)

/-! ### Two words change places -/

theorem words_within {w : List Char} : ∀ {l : List (List Char)}, w ∈ l → w <:+: join ['.'] l
  | [], h => nomatch h
  | [v], h => by
    rw [List.mem_singleton.mp h]
    exact List.infix_rfl
  | v :: u :: l, h => by
    rw [show join ['.'] (v :: u :: l) = v ++ ['.'] ++ join ['.'] (u :: l) from rfl]
    rcases List.mem_cons.mp h with rfl | h
    · exact ⟨[], ['.'] ++ join ['.'] (u :: l), by simp⟩
    · exact (words_within h).trans (List.suffix_append _ _).isInfix

theorem word_within {s w : List Char} (h : w ∈ splitOn (· == '.') s) : w <:+: s := by
  have := words_within h
  rwa [join_splitOn] at this

theorem wordwise_split {f : String → String} (hw : ∀ w : String, '.' ∉ w.toList → '.' ∉ (f w).toList) (x : String) :
    splitOn (· == '.') (wordwise f x).toList = (splitOn (· == '.') x.toList).map fun w => (f (String.ofList w)).toList := by
  unfold wordwise
  rw [String.toList_ofList, splitOn_join]
  · simp [splitOn_ne]
  · intro w h
    obtain ⟨v, hv, rfl⟩ := List.mem_map.mp h
    exact hw _ (by rw [String.toList_ofList]; exact words_free hv)

theorem wordwise_kept {f : String → String} {x : String} (h : ∀ w ∈ splitOn (· == '.') x.toList, f (String.ofList w) = String.ofList w) : wordwise f x = x := by
  unfold wordwise
  rw [List.map_congr_left (g := id) (fun w hw => by rw [h w hw, String.toList_ofList]; rfl), List.map_id, join_splitOn, String.ofList_toList]

theorem splitOn_dotted (a b : List Char) : splitOn (· == '.') (a ++ '.' :: b) = splitOn (· == '.') a ++ splitOn (· == '.') b := by
  induction a with
  | nil => rfl
  | cons x a ih =>
    rw [List.cons_append, splitOn, splitOn, ih]
    split
    · rfl
    · cases hs : splitOn (· == '.') a with
      | nil => exact absurd hs (splitOn_ne _ a)
      | cons w ws => rfl

theorem join_two : ∀ {k l : List (List Char)}, k ≠ [] → l ≠ [] → join ['.'] (k ++ l) = join ['.'] k ++ '.' :: join ['.'] l
  | [], _, h, _ => absurd rfl h
  | [w], [], _, h => absurd rfl h
  | [w], v :: l, _, _ => by simp [join]
  | w :: v :: k, l, _, hl => by
    have := join_two (k := v :: k) (by simp) hl
    rw [show w :: v :: k ++ l = w :: v :: (k ++ l) from rfl, show join ['.'] (w :: v :: (k ++ l)) = w ++ ['.'] ++ join ['.'] (v :: k ++ l) from rfl, this]
    simp [join]

theorem swapped_swapped (a b w : String) : swapped a b (swapped a b w) = w := by
  unfold swapped
  grind

/-- Exchanging two words that mean nothing is a consistent renaming. -/
theorem swapped_renaming {a b : String} (ha : Unused c a) (hb : Unused c b) : Renaming c (wordwise (swapped a b)) := by
  have hd : ∀ w : String, '.' ∉ w.toList → '.' ∉ (swapped a b w).toList := by
    intro w hw
    unfold swapped
    split
    · exact hb.2.1
    · split
      · exact ha.2.1
      · exact hw
  have hk : ∀ x : String, a.toList ∉ splitOn (· == '.') x.toList → b.toList ∉ splitOn (· == '.') x.toList → wordwise (swapped a b) x = x := by
    intro x h1 h2
    refine wordwise_kept fun w hw => ?_
    unfold swapped
    rw [if_neg, if_neg]
    · rintro rfl; exact h2 (by rwa [String.toList_ofList])
    · rintro rfl; exact h1 (by rwa [String.toList_ofList])
  refine { inj := ?_, empty := ?_, dotted := ?_, word := ?_, known := ?_, excluded := ?_, excludedKw := ?_ }
  · intro x y h
    have h := congrArg (fun z : String => splitOn (· == '.') z.toList) h
    simp only [wordwise_split hd] at h
    have := (List.map_inj_right (fun v w hvw => by
      have := congrArg (swapped a b) (String.toList_inj.mp hvw)
      rw [swapped_swapped, swapped_swapped] at this
      have := congrArg String.toList this
      simpa using this)).mp h
    have := congrArg (join ['.']) this
    rw [join_splitOn, join_splitOn] at this
    exact String.toList_inj.mp this
  · refine hk _ ?_ ?_
    · show a.toList ∉ [[]]
      simpa using ha.1
    · show b.toList ∉ [[]]
      simpa using hb.1
  · intro x y
    apply String.toList_inj.mp
    unfold wordwise
    simp only [String.toList_append, String.toList_ofList]
    rw [show x.toList ++ ".".toList ++ y.toList = x.toList ++ '.' :: y.toList by simp, splitOn_dotted, List.map_append, join_two (by simp [splitOn_ne]) (by simp [splitOn_ne])]
    simp
  · intro x hx hx'
    have h1 := wordwise_split hd x
    rw [splitOn_of_none (s := x.toList) (fun c hc => by simp only [beq_eq_false_iff_ne]; rintro rfl; exact hx hc)] at h1
    have := (splitOn_singleton h1).2 _ hx'
    revert this; decide
  · intro x hx
    exact hk x (ha.2.2.1 x hx) (hb.2.2.1 x hx)
  · intro x hx
    exact hk x (fun h => ha.2.2.2 x hx (word_within h)) (fun h => hb.2.2.2 x hx (word_within h))
  · intro f k hx
    have h1 : f.toList <:+: (f ++ "(" ++ k ++ ")").toList := ⟨[], ("(" ++ k ++ ")").toList, by simp⟩
    have h2 : k.toList <:+: (f ++ "(" ++ k ++ ")").toList := ⟨(f ++ "(").toList, [')'], by simp⟩
    exact ⟨hk f (fun h => ha.2.2.2 _ hx ((word_within h).trans h1)) (fun h => hb.2.2.2 _ hx ((word_within h).trans h1)),
      hk k (fun h => ha.2.2.2 _ hx ((word_within h).trans h2)) (fun h => hb.2.2.2 _ hx ((word_within h).trans h2))⟩

/-- C101: exchanging two words that mean nothing, also renaming one to a word that does not occur, changes nothing. -/
theorem C101_swapped (c : Config) (h : Host) (path : String) (toks : List Tok) (n : Node) (a b : String) (ha : Unused c a) (hb : Unused c b)
    (ho : ∀ l, (h.order l).Perm l) (hf : c.hasFeature "fstring-self-doc" = false) :
    detectSource c h path (n.renamed (wordwise (swapped a b))) toks = detectSource c h path n toks :=
  C101_renamed c h path toks n _ (swapped_renaming ha hb) ho hf

/-! ### Words with letters outside ASCII -/

open Vermin.Data
/-- Only ASCII characters. -/
def Ascii (s : List Char) : Prop := ∀ c ∈ s, c.toNat < 128

def digitsAscii : Nat → Nat → Bool
  | 0, _ => true
  | fuel + 1, n => bif Nat.ble n 1 then true else Nat.ble (n % 1114112) 127 && digitsAscii fuel (n / 1114112)
def pairAscii : Nat → Nat → Bool
  | 0, _ => true
  | fuel + 1, n => bif Nat.beq (n % 1114112) 0 then digitsAscii 100 (n / 1114112)
    else Nat.ble (n % 1114112) 127 && pairAscii fuel (n / 1114112)

theorem ofNat_ascii {d : Nat} (h : d ≤ 127) : (Char.ofNat d).toNat < 128 := by
  have hv : d.isValidChar := .inl (by omega)
  have : (Char.ofNat d).toNat = d := by
    unfold Char.ofNat
    rw [dif_pos hv]
    rfl
  omega

theorem decChars_ascii : ∀ {fuel n : Nat} {acc : List Char}, digitsAscii fuel n = true → Ascii acc → Ascii (decChars fuel n acc)
  | 0, _, _, _, ha => ha
  | fuel + 1, n, acc, h, ha => by
    unfold decChars
    unfold digitsAscii at h
    cases hb : Nat.ble n 1 with
    | true => exact ha
    | false =>
      rw [hb, cond_false, Bool.and_eq_true] at h
      refine decChars_ascii h.2 fun c hc => ?_
      rcases List.mem_cons.mp hc with rfl | hc
      · exact ofNat_ascii (Nat.le_of_ble_eq_true h.1)
      · exact ha c hc

theorem decStr_ascii {n : Nat} (h : digitsAscii 100 n = true) : Ascii (decStr n).toList := by
  unfold decStr
  rw [String.toList_ofList]
  exact decChars_ascii h fun _ h => nomatch h

theorem decPair_ascii : ∀ {fuel n : Nat} {acc : List Char}, pairAscii fuel n = true → Ascii acc → Ascii (decPair fuel n acc).1.toList ∧ Ascii (decPair fuel n acc).2.toList
  | 0, _, acc, _, ha => ⟨(fun c hc => absurd hc List.not_mem_nil), by unfold decPair; rwa [String.toList_ofList]⟩
  | fuel + 1, n, acc, h, ha => by
    unfold decPair
    unfold pairAscii at h
    cases hb : Nat.beq (n % 1114112) 0 with
    | true =>
      rw [hb, cond_true] at h
      exact ⟨decStr_ascii h, by rw [cond_true, String.toList_ofList]; exact ha⟩
    | false =>
      rw [hb, cond_false, Bool.and_eq_true] at h
      refine decPair_ascii h.2 fun c hc => ?_
      rcases List.mem_cons.mp hc with rfl | hc
      · exact ofNat_ascii (Nat.le_of_ble_eq_true h.1)
      · exact ha c hc

theorem mod_ascii : modReqsCodesChunks.all (·.all (digitsAscii 100)) = true := by decide +kernel
theorem mem_ascii : memReqsCodesChunks.all (·.all (digitsAscii 100)) = true := by decide +kernel
theorem kw_ascii : kwReqsCodesChunks.all (·.all (pairAscii 100)) = true := by decide +kernel

theorem keys_ascii {α β : Type} (P : α → Prop) (dec : Nat → α) (ok : Nat → Bool) (hok : ∀ n, ok n = true → P (dec n)) {chunks : List (List (α × β))} {codes : List (List Nat)}
    (he : chunks.map (·.map Prod.fst) = codes.map (·.map dec)) (hc : codes.all (·.all ok) = true) : ∀ x ∈ chunks.flatten.map Prod.fst, P x := by
  intro x hx
  have e1 : chunks.flatten.map Prod.fst = codes.flatten.map dec := by
    rw [List.map_flatten, he, List.map_flatten]
  rw [e1] at hx
  obtain ⟨n, hn, rfl⟩ := List.mem_map.mp hx
  obtain ⟨l, hl, hn⟩ := List.mem_flatten.mp hn
  exact hok n (List.all_eq_true.mp (List.all_eq_true.mp hc l hl) n hn)

/-- Every known name is written with ASCII characters. -/
theorem known_ascii : ∀ x ∈ knownNames, Ascii x.toList := by
  have h1 : ∀ x ∈ modReqs.map Prod.fst, Ascii x.toList := keys_ascii (fun x : String => Ascii x.toList) decStr (digitsAscii 100) (fun _ h => decStr_ascii h) mod_keys mod_ascii
  have h2 : ∀ x ∈ memReqs.map Prod.fst, Ascii x.toList := keys_ascii (fun x : String => Ascii x.toList) decStr (digitsAscii 100) (fun _ h => decStr_ascii h) mem_keys mem_ascii
  have h3 : ∀ x ∈ kwReqs.map Prod.fst, Ascii x.1.toList ∧ Ascii x.2.toList :=
    keys_ascii (fun x : String × String => Ascii x.1.toList ∧ Ascii x.2.toList) (decPair 100 · []) (pairAscii 100) (fun _ h => decPair_ascii h fun _ h => nomatch h) kw_keys kw_ascii
  have h4 : ∀ x ∈ kwReqs.map (·.1.1), Ascii x.toList := by
    intro x hx
    obtain ⟨e, he, rfl⟩ := List.mem_map.mp hx
    exact (h3 e.1 (List.mem_map.mpr ⟨e, he, rfl⟩)).1
  have h5 : ∀ x ∈ kwReqs.map (·.1.2), Ascii x.toList := by
    intro x hx
    obtain ⟨e, he, rfl⟩ := List.mem_map.mp hx
    exact (h3 e.1 (List.mem_map.mpr ⟨e, he, rfl⟩)).2
  have h6 : ∀ x ∈ visitorWords, Ascii x.toList := by unfold Ascii; decide +kernel
  have h7 : ∀ x ∈ Data.decoratorUserFunctions.map (·.1), Ascii x.toList := by unfold Ascii; decide +kernel
  have h8 : ∀ x ∈ Data.codecsErrorsIndices.map (·.1), Ascii x.toList := by unfold Ascii; decide +kernel
  have h9 : ∀ x ∈ Data.codecsEncodingsIndices.map (·.1), Ascii x.toList := by unfold Ascii; decide +kernel
  have h10 : ∀ x ∈ Data.builtinGenericAnnotationTypes, Ascii x.toList := by unfold Ascii; decide +kernel
  have h11 : ∀ x ∈ Data.dictUnionSupportedTypes, Ascii x.toList := by unfold Ascii; decide +kernel
  have h12 : ∀ x ∈ Data.dictUnionMergeSupportedTypes, Ascii x.toList := by unfold Ascii; decide +kernel
  intro x hx
  simp only [knownNames, List.mem_append] at hx
  rcases hx with (((((((((hx | hx) | hx) | hx) | hx) | hx) | hx) | hx) | hx) | hx) | hx
  · exact h6 x hx
  · exact h1 x hx
  · exact h2 x hx
  · exact h4 x hx
  · exact h5 x hx
  · exact h7 x hx
  · exact h8 x hx
  · exact h9 x hx
  · exact h10 x hx
  · exact h11 x hx
  · exact h12 x hx

/-- A word with a letter outside ASCII means nothing to Vermin. -/
theorem foreign_unused {c : Config} {a : String} (hd : '.' ∉ a.toList) (ha : ∃ ch ∈ a.toList, 128 ≤ ch.toNat) (hx : ∀ x ∈ c.exclusions, ¬ a.toList <:+: x.toList) : Unused c a := by
  obtain ⟨ch, hc, h⟩ := ha
  refine ⟨(fun h => by rw [h] at hc; cases hc), hd, fun x hk hm => ?_, hx⟩
  have := known_ascii x hk ch ((word_within hm).subset hc)
  omega

/-- C101: exchanging two words with letters outside ASCII changes nothing. -/
theorem C101_foreign (c : Config) (h : Host) (path : String) (toks : List Tok) (n : Node) (a b : String) (ha : ∃ ch ∈ a.toList, 128 ≤ ch.toNat)
    (hb : ∃ ch ∈ b.toList, 128 ≤ ch.toNat) (ha' : '.' ∉ a.toList) (hb' : '.' ∉ b.toList) (hx : ∀ x ∈ c.exclusions, ¬ a.toList <:+: x.toList ∧ ¬ b.toList <:+: x.toList)
    (ho : ∀ l, (h.order l).Perm l) (hf : c.hasFeature "fstring-self-doc" = false) :
    detectSource c h path (n.renamed (wordwise (swapped a b))) toks = detectSource c h path n toks :=
  C101_swapped c h path toks n a b (foreign_unused ha' ha fun x hx' => (hx x hx').1) (foreign_unused hb' hb fun x hx' => (hx x hx').2) ho hf

/-! ### Examples -/

/-- `class größe: pass` and `(höhe := größe.höhe)` -/
def sizeProg : Node :=
  prog [nd .body (.classDef "größe") 1 [nd .body .pass 1 []],
        nd .body .expr 2 [nd .value .namedExpr 2 [nm .target "höhe" 2, nd .value (.attribute "höhe") 2 [nm .value "größe" 2]]]]

/-- Classes, variables and attributes change names. -/
theorem sizeProg_renamed : sizeProg.renamed (wordwise (swapped "größe" "höhe")) =
    prog [nd .body (.classDef "höhe") 1 [nd .body .pass 1 []],
          nd .body .expr 2 [nd .value .namedExpr 2 [nm .target "größe" 2, nd .value (.attribute "größe") 2 [nm .value "höhe" 2]]]] := by
  have h1 : wordwise (swapped "größe" "höhe") "größe" = "höhe" := by decide +kernel
  have h2 : wordwise (swapped "größe" "höhe") "höhe" = "größe" := by decide +kernel
  simp only [sizeProg, prog, nd, nm, Node.renamed, renamedAll, Kind.renamed, h1, h2]

/-- C101: a program with an assignment expression requires Python 3.8, whatever its names are. -/
theorem C101_witness : detectSource (Config.init 1) exampleHost "a.py" (sizeProg.renamed (wordwise (swapped "größe" "höhe"))) [] =
      detectSource (Config.init 1) exampleHost "a.py" sizeProg [] ∧
    requirement (Config.init 1) sizeProg = some ⟨none, some ⟨3, 8⟩⟩ ∧
    requirement (Config.init 1) (sizeProg.renamed (wordwise (swapped "größe" "höhe"))) = some ⟨none, some ⟨3, 8⟩⟩ :=
  ⟨C101_foreign _ _ _ _ _ _ _ ⟨'ö', by decide, by decide⟩ ⟨'ö', by decide, by decide⟩ (by decide) (by decide)
    (fun _ h => absurd h List.not_mem_nil) (fun _ => .refl _) (by decide), by decide +kernel, by decide +kernel⟩

/-- C101: names that mean something do matter: a variable `höhe` requires nothing, `long` Python 2. -/
theorem C101_known : requirement (Config.init 1) (prog [st 1 (nm .value "höhe")]) ≠
    requirement (Config.init 1) ((prog [st 1 (nm .value "höhe")]).renamed (wordwise (swapped "höhe" "long"))) := by decide +kernel

/-- C101: two names may not become one: a class `größe` says nothing about `long`, a class `long` does. -/
theorem C101_merged : requirement (Config.init 1) (prog [nd .body (.classDef "größe") 1 [], st 2 (nm .value "long")]) ≠
    requirement (Config.init 1) ((prog [nd .body (.classDef "größe") 1 [], st 2 (nm .value "long")]).renamed (wordwise fun x => if x = "größe" then "long" else x)) := by
  decide +kernel

end Vermin.Props
