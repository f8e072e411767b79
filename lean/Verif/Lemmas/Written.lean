import Verif.Lemmas.Names
import Verif.Spec.Written
/-
Text extracted from expressions in f-strings.
-/
namespace Vermin
open Py Spec

theorem trims_iff (c : Char) : (" \t\n\r\x0c\x0b()".toList.contains c) = true ↔ Blank c ∨ c = '(' ∨ c = ')' := by
  rw [List.contains_iff_mem, show " \t\n\r\x0c\x0b()".toList = [' ', '\t', '\n', '\r', '\x0c', '\x0b', '(', ')'] by decide]
  simp only [List.mem_cons, List.not_mem_nil, or_false, Blank, or_assoc]

theorem trim_eq (t : List Char) : trimFstring t = compact t := by
  unfold trimFstring compact
  congr 1
  funext c
  have := trims_iff c
  rw [Bool.eq_iff_iff]
  rw [Bool.not_eq_true', ← Bool.not_eq_true, this]
  simp [and_assoc]

theorem compact_append (a b : List Char) : compact (a ++ b) = compact a ++ compact b := List.filter_append ..
theorem compact_nil : compact [] = [] := rfl
theorem compact_join (sep : List Char) : ∀ ws : List (List Char), compact (join sep ws) = sepBy (compact sep) (ws.map compact)
  | [] => rfl
  | [w] => by simp [join, sepBy]
  | w :: w' :: ws => by
    rw [join, compact_append, compact_append, compact_join sep (w' :: ws)]
    · simp [sepBy]
    · simp
theorem compact_symbol (o : Op) : compact (opText o).toList = (symbol o).toList := by cases o <;> decide

/-- The texts are those of the nodes. -/
theorem fInfos_eq (ms : Dict String String) : ∀ ks : List Node, fInfos ms ks = ks.map fun k => (k, fInfo ms k)
  | [] => by simp [fInfos]
  | k :: ks => by rw [fInfos, fInfos_eq ms ks]; rfl

theorem fOne_eq {ms : Dict String String} {n k : Node} {f : Fld} (h : n.field f = some k) : fOne (fInfos ms n.kids) f = extractFstring ms k := by
  unfold fOne
  rw [fInfos_eq]
  have : ∀ ks : List Node, ks.find? (fun k => decide (k.fld = f)) = some k →
      (ks.map fun k => (k, fInfo ms k)).find? (fun k => decide (k.1.fld = f)) = some (k, fInfo ms k) := by
    intro ks h
    induction ks with
    | nil => cases h
    | cons a ks ih =>
      rw [List.find?_cons] at h
      rw [List.map_cons, List.find?_cons]
      dsimp only
      split at h
      · cases h; simp [*]
      · rw [ih h]; simp [*]
  rw [this _ h]
  rfl
theorem fAll_eq (ms : Dict String String) (n : Node) (f : Fld) : fAll (fInfos ms n.kids) f = (n.fields f).map (extractFstring ms) := by
  unfold fAll
  rw [fInfos_eq]
  unfold Node.fields
  induction n.kids with
  | nil => rfl
  | cons a ks ih =>
    rw [List.map_cons, List.filter_cons, List.filter_cons]
    dsimp only
    split
    · rw [List.map_cons, List.map_cons, ih]; rfl
    · exact ih

theorem extract_eq (ms : Dict String String) (n : Node) :
    extractFstring ms n = fResult (fWalk (fItem ms n (fInfos ms n.kids) :: (fLevels (fInfos ms n.kids)).flatten)) := by
  cases n with
  | mk i ks => unfold extractFstring fInfo; rfl
theorem info_levels (ms : Dict String String) (n : Node) : (fInfo ms n).levels = [fItem ms n (fInfos ms n.kids)] :: fLevels (fInfos ms n.kids) := by
  cases n with
  | mk i ks => unfold fInfo; rfl

theorem extract_last {ms : Dict String String} {n : Node} {t : String} (h : fItem ms n (fInfos ms n.kids) = .ok (.last t)) : extractFstring ms n = .ok t := by
  rw [extract_eq, h]
  simp [fWalk, FItem.last, fResult, strJoin, join]
theorem extract_leaf {ms : Dict String String} {n : Node} {t : String} (hk : n.kids = []) (h : fItem ms n (fInfos ms n.kids) = .ok ⟨[some t], false, false⟩) :
    extractFstring ms n = .ok t := by
  rw [extract_eq, h, hk]
  simp [fWalk, fResult, strJoin, join, fInfos, fLevels]

/-- The text extracted is written `t`; from other expressions than attributes and calls it is a single one. -/
structure Extracts (ms : Dict String String) (n : Node) (t : List Char) : Prop where
  ext : ∃ y, extractFstring ms n = .ok y ∧ compact y.toList = t
  one : (∀ b, n.kind ≠ .attribute b) → n.kind ≠ .call →
    ∃ y b, fItem ms n (fInfos ms n.kids) = .ok ⟨[some y], b, false⟩ ∧ (b = false → n.kids = []) ∧ compact y.toList = t

theorem extracts_last {ms : Dict String String} {n : Node} {y : String} {t : List Char} (h : fItem ms n (fInfos ms n.kids) = .ok (.last y))
    (ht : compact y.toList = t) : Extracts ms n t :=
  ⟨⟨y, extract_last h, ht⟩, fun _ _ => ⟨y, true, h, nofun, ht⟩⟩
theorem extracts_leaf {ms : Dict String String} {n : Node} {y : String} {t : List Char} (hk : n.kids = [])
    (h : fItem ms n (fInfos ms n.kids) = .ok ⟨[some y], false, false⟩) (ht : compact y.toList = t) : Extracts ms n t :=
  ⟨⟨y, extract_leaf hk h, ht⟩, fun _ _ => ⟨y, false, h, fun _ => hk, ht⟩⟩

theorem extract_op {ms : Dict String String} {n : Node} {o : Op} (h : n.kind = .op o) (hk : n.kids = []) : extractFstring ms n = .ok (opText o) :=
  extract_leaf hk (by unfold fItem; rw [h])

theorem extract_chain {ms : Dict String String} {v : Node} {a : String} {bs : List String} (h : Chain v a bs) (hr : resolveModuleName ms a = a) :
    extractFstring ms v = .ok (dottedText a bs) := by
  obtain ⟨b, hb⟩ := chain_attr h
  have hname := chain_name h ms
  rw [hr] at hname
  have : fItem ms v (fInfos ms v.kids) = .ok ⟨some a :: bs.map some, true, false⟩ := by
    unfold fItem
    rw [hb]
    simp only [hname]
    rfl
  rw [extract_eq, this]
  simp only [fWalk, if_true, fResult]
  rw [if_neg (by simp)]
  rw [← dotted_text]
  simp only [Bool.false_eq_true, if_false, strJoin, dotted]
  congr 3
  simp [List.filterMap_map, Function.comp_def]

/-- Texts of several nodes -/
theorem allOk_texts {ms : Dict String String} : ∀ {vs : List Node} {ts : List (List Char)}, vs.length = ts.length →
    (∀ q ∈ vs.zip ts, ∃ y, extractFstring ms q.1 = .ok y ∧ compact y.toList = q.2) →
    ∃ ys : List String, allOk (vs.map (extractFstring ms)) = .ok ys ∧ ys.map (fun y => compact y.toList) = ts
  | [], [], _, _ => ⟨[], rfl, rfl⟩
  | v :: vs, t :: ts, hl, h => by
    obtain ⟨ys, h1, h2⟩ := allOk_texts (vs := vs) (ts := ts) (by simpa using hl) fun q hq => h q (by simp [hq])
    obtain ⟨y, h3, h4⟩ := h (v, t) (by simp)
    refine ⟨y :: ys, ?_, by simp [h2, h4]⟩
    rw [List.map_cons, h3]
    simp only [allOk, h1]
theorem allOk_ops {ms : Dict String String} : ∀ {vs : List Node} {os : List Op}, vs.length = os.length →
    (∀ q ∈ vs.zip os, q.1.kind = .op q.2 ∧ q.1.kids = []) → allOk (vs.map (extractFstring ms)) = .ok (os.map opText)
  | [], [], _, _ => rfl
  | v :: vs, o :: os, hl, h => by
    have h1 := allOk_ops (ms := ms) (vs := vs) (os := os) (by simpa using hl) fun q hq => h q (by simp [hq])
    have h2 := h (v, o) (by simp)
    rw [List.map_cons, extract_op h2.1 h2.2]
    simp only [allOk, h1]
    rfl
theorem fKeys_eq : ∀ {nulls : List Bool} {rs : List (Except Err String)}, (∀ b ∈ nulls, b = false) → nulls.length = rs.length → fKeys nulls rs = rs
  | [], [], _, _ => rfl
  | b :: nulls, r :: rs, h, hl => by
    have := h b (by simp)
    subst this
    rw [fKeys, fKeys_eq (fun b hb => h b (by simp [hb])) (by simpa using hl)]

theorem strJoin_compact (sep : String) (ys : List String) : compact (strJoin sep ys).toList = sepBy (compact sep.toList) (ys.map fun y => compact y.toList) := by
  unfold strJoin
  rw [String.toList_ofList, compact_join, List.map_map]
  rfl

theorem compare_texts : ∀ (ops : List Op) (ys : List String),
    (((ops.map opText).zip ys).map fun (o, c) => o ++ " " ++ c).map (fun y => compact y.toList) =
      (ops.zip (ys.map fun y => compact y.toList)).map fun q => (symbol q.1).toList ++ q.2
  | [], _ => rfl
  | _ :: _, [] => rfl
  | o :: ops, y :: ys => by
    have h := compare_texts ops ys
    simp only [List.map_cons, List.zip_cons_cons, String.toList_append, compact_append, compact_symbol]
    rw [h, show compact " ".toList = [] by decide, List.append_nil]
theorem dict_texts : ∀ ys zs : List String, ((ys.zip zs).map fun (k, v) => k ++ ":" ++ v).map (fun y => compact y.toList) =
      ((ys.map fun y => compact y.toList).zip (zs.map fun y => compact y.toList)).map fun q => q.1 ++ ':' :: q.2
  | [], _ => rfl
  | _ :: _, [] => rfl
  | y :: ys, z :: zs => by
    have h := dict_texts ys zs
    simp only [List.map_cons, List.zip_cons_cons, String.toList_append, compact_append]
    rw [h, show compact ":".toList = [':'] by decide, List.append_assoc, List.singleton_append]

/-- One clause of a comprehension -/
theorem allOk_gen {ms : Dict String String} {n g x i : Node} {t u : String} (hg : n.fields .generators = [g]) (gk : g.kind = .comprehension false)
    (gx : g.field .target = some x) (h1 : extractFstring ms x = .ok t) (gi : g.field .iter = some i) (h2 : extractFstring ms i = .ok u) :
    allOk ((n.fields .generators).map (extractFstring ms)) = .ok [t ++ " in " ++ u] := by
  have : extractFstring ms g = .ok (t ++ " in " ++ u) := by
    refine extract_last ?_
    unfold fItem; rw [gk]; simp only [fOne_eq gx, fOne_eq gi, h1, h2]; rfl
  rw [hg, List.map_cons, this]
  rfl

theorem const_item {ms : Dict String String} {n : Node} {c : Const} {t : String} (h : n.kind = .const c) (hw : WrittenConst c t) (ks) :
    fItem ms n ks = .ok ⟨[some t], false, false⟩ := by
  unfold fItem
  rw [h]
  cases hw <;> rfl

/-- The text of a call with one argument, which contributes a single text -/
theorem extract_arg {ms : Dict String String} {n f e : Node} {x y : String} {c : Ctx} {b : Bool} (hk : n.kind = .call)
    (ha : n.fields .args ≠ [] ∨ n.fields .keywords ≠ []) (hks : n.kids = [f, e]) (hfk : f.kind = .name x c) (hfks : f.kids = [])
    (h : fItem ms e (fInfos ms e.kids) = .ok ⟨[some y], b, false⟩) (hb : b = false → e.kids = []) :
    extractFstring ms n = .ok (x ++ "(" ++ y ++ ")") := by
  have h1 : fItem ms n (fInfos ms n.kids) = .ok ⟨[], false, true⟩ := by
    unfold fItem; rw [hk]; dsimp only
    rw [if_neg]
    simp only [Bool.and_eq_true, List.isEmpty_iff]
    exact fun h => ha.elim (fun g => g h.1) (fun g => g h.2)
  have h2 : ∀ ks, fItem ms f ks = .ok ⟨[some x], false, false⟩ := fun ks => by unfold fItem; rw [hfk]
  rw [extract_eq, h1, hks]
  simp only [fInfos, fLevels, info_levels, h2, h, hfks]
  cases b with
  | true =>
    cases hl : fLevels (fInfos ms e.kids) <;>
      (simp [mergeLevels, fWalk, fResult, strJoin, hl, String.ext_iff, List.replicate]; show x.toList ++ ['('] ++ y.toList ++ [')'] = _; simp)
  | false =>
    rw [hb rfl]
    simp [fInfos, fLevels, mergeLevels, fWalk, fResult, strJoin, String.ext_iff, List.replicate]
    show x.toList ++ ['('] ++ y.toList ++ [')'] = _
    simp

theorem written_extracts {p : Node} {ms : Dict String String} (hms : ∀ a, (∀ k m, In k p → ¬ ImportsAs k m a) → resolveModuleName ms a = a)
    {n : Node} {t : List Char} (h : Written p n t) : Extracts ms n t := by
  induction h with
  | name hk hn => exact extracts_leaf hn (by unfold fItem; rw [hk]) rfl
  | const hk hn hc => exact extracts_leaf hn (const_item hk hc _) rfl
  | attr hc hr =>
    obtain ⟨b, hb⟩ := chain_attr hc
    exact ⟨⟨_, extract_chain hc (hms _ hr), rfl⟩, fun h => absurd hb (h b)⟩
  | @binOp n l o r op a b hk hl ho hop hok hr _ _ h1 h2 =>
    obtain ⟨y1, e1, rfl⟩ := h1.ext
    obtain ⟨y2, e2, rfl⟩ := h2.ext
    refine extracts_last (y := y1 ++ opText op ++ y2) ?_ ?_
    · unfold fItem; rw [hk]; simp only [fOne_eq hl, fOne_eq ho, fOne_eq hr, e1, e2, extract_op hop hok]; rfl
    · simp only [String.toList_append, compact_append, compact_symbol]
  | @unaryOp n o e op a hk ho hop hok he _ h1 =>
    obtain ⟨y1, e1, rfl⟩ := h1.ext
    refine extracts_last (y := opText op ++ y1) ?_ ?_
    · unfold fItem; rw [hk]; simp only [fOne_eq ho, fOne_eq he, e1, extract_op hop hok]; rfl
    · simp only [String.toList_append, compact_append, compact_symbol]
  | @boolOp n o op ts hk ho hop hok hl _ h1 =>
    obtain ⟨ys, e1, rfl⟩ := allOk_texts (ms := ms) hl fun q hq => (h1 q hq).ext
    refine extracts_last (y := strJoin (opText op) ys) ?_ ?_
    · unfold fItem; rw [hk]; simp only [fOne_eq ho, fAll_eq, e1, extract_op hop hok]; rfl
    · rw [strJoin_compact, compact_symbol]
  | @compare n l a ops ts hk hl _ hol ho hcl _ h1 h2 =>
    obtain ⟨y1, e1, rfl⟩ := h1.ext
    obtain ⟨ys, e2, rfl⟩ := allOk_texts (ms := ms) hcl fun q hq => (h2 q hq).ext
    have e3 := allOk_ops (ms := ms) hol ho
    refine extracts_last (y := y1 ++ strJoin "" (((ops.map opText).zip ys).map fun (o, c) => o ++ " " ++ c)) ?_ ?_
    · unfold fItem; rw [hk]; simp only [fOne_eq hl, fAll_eq, e1, e2, e3]; rfl
    · rw [String.toList_append, compact_append, strJoin_compact]
      congr 1
      have : ∀ ls : List (List Char), sepBy (compact "".toList) ls = ls.flatten := by
        intro ls
        show sepBy [] ls = _
        unfold sepBy
        induction ls with
        | nil => rfl
        | cons a ls ih => cases ls <;> simp_all
      rw [this]
      congr 1
      exact compare_texts ops ys
  | @ifExp n b c e s t u hk hb hc he _ _ _ h1 h2 h3 =>
    obtain ⟨y1, e1, rfl⟩ := h1.ext
    obtain ⟨y2, e2, rfl⟩ := h2.ext
    obtain ⟨y3, e3, rfl⟩ := h3.ext
    refine extracts_last (y := y1 ++ " if " ++ y2 ++ " else " ++ y3) ?_ ?_
    · unfold fItem; rw [hk]; simp only [fOne_eq hb, fOne_eq hc, fOne_eq he, e1, e2, e3]; rfl
    · simp only [String.toList_append, compact_append]; rfl
  | @tuple n c ts hk hl _ h1 =>
    obtain ⟨ys, e1, rfl⟩ := allOk_texts (ms := ms) hl fun q hq => (h1 q hq).ext
    refine extracts_last (y := "(" ++ strJoin "," ys ++ ")") ?_ ?_
    · unfold fItem; rw [hk]; simp only [fAll_eq, e1]; rfl
    · simp only [String.toList_append, compact_append, strJoin_compact]; exact List.append_nil _
  | @list n c ts hk hl _ h1 =>
    obtain ⟨ys, e1, rfl⟩ := allOk_texts (ms := ms) hl fun q hq => (h1 q hq).ext
    refine extracts_last (y := "[" ++ strJoin "," ys ++ "]") ?_ ?_
    · unfold fItem; rw [hk]; simp only [fAll_eq, e1]; rfl
    · simp only [String.toList_append, compact_append, strJoin_compact]; rfl
  | @set n ts hk hl _ h1 =>
    obtain ⟨ys, e1, rfl⟩ := allOk_texts (ms := ms) hl fun q hq => (h1 q hq).ext
    refine extracts_last (y := "{" ++ strJoin "," ys ++ "}") ?_ ?_
    · unfold fItem; rw [hk]; simp only [fAll_eq, e1]; rfl
    · simp only [String.toList_append, compact_append, strJoin_compact]; rfl
  | @dict n nulls ks vs hk hn hnl hkl _ hvl _ h1 h2 =>
    obtain ⟨ys, e1, rfl⟩ := allOk_texts (ms := ms) hkl fun q hq => (h1 q hq).ext
    obtain ⟨zs, e2, rfl⟩ := allOk_texts (ms := ms) hvl fun q hq => (h2 q hq).ext
    refine extracts_last (y := "{" ++ strJoin "," ((ys.zip zs).map fun (k, v) => k ++ ":" ++ v) ++ "}") ?_ ?_
    · unfold fItem; rw [hk]; simp only [fAll_eq]
      rw [fKeys_eq hn (by simp [hnl, hkl]), e1, e2]; rfl
    · simp only [String.toList_append, compact_append, strJoin_compact]
      rw [dict_texts]
      rfl
  | @subscript n v s a b hk hv hs _ _ h1 h2 =>
    obtain ⟨y1, e1, rfl⟩ := h1.ext
    obtain ⟨y2, e2, rfl⟩ := h2.ext
    refine extracts_last (y := y1 ++ "[" ++ y2 ++ "]") ?_ ?_
    · unfold fItem; rw [hk]; simp only [fOne_eq hv, fOne_eq hs, e1, e2]; rfl
    · simp only [String.toList_append, compact_append]; simp [show compact ['['] = ['['] by decide, show compact [']'] = [']'] by decide]
  | @listComp n g x i e t u v hk he _ hg gk gx _ gi _ gs h1 h2 h3 =>
    obtain ⟨y1, e1, rfl⟩ := h1.ext
    obtain ⟨y2, e2, rfl⟩ := h2.ext
    obtain ⟨y3, e3, rfl⟩ := h3.ext
    refine extracts_last (y := "[" ++ y1 ++ " for " ++ strJoin " " [y2 ++ " in " ++ y3] ++ "]") ?_ ?_
    · unfold fItem; rw [hk]; simp only [fOne_eq he, fAll_eq, e1, allOk_gen hg gk gx e2 gi e3]; rfl
    · simp only [String.toList_append, compact_append, strJoin_compact, sepBy, List.map_cons, List.map_nil, List.intersperse_singleton, List.flatten_cons, List.flatten_nil, List.append_nil]
      simp only [← List.append_assoc]
      rfl
  | @setComp n g x i e t u v hk he _ hg gk gx _ gi _ gs h1 h2 h3 =>
    obtain ⟨y1, e1, rfl⟩ := h1.ext
    obtain ⟨y2, e2, rfl⟩ := h2.ext
    obtain ⟨y3, e3, rfl⟩ := h3.ext
    refine extracts_last (y := "{" ++ y1 ++ " for " ++ strJoin " " [y2 ++ " in " ++ y3] ++ "}") ?_ ?_
    · unfold fItem; rw [hk]; simp only [fOne_eq he, fAll_eq, e1, allOk_gen hg gk gx e2 gi e3]; rfl
    · simp only [String.toList_append, compact_append, strJoin_compact, sepBy, List.map_cons, List.map_nil, List.intersperse_singleton, List.flatten_cons, List.flatten_nil, List.append_nil]
      simp only [← List.append_assoc]
      rfl
  | @dictComp n g x i k e r t u v hk hkey _ he _ hg gk gx _ gi _ gs h0 h1 h2 h3 =>
    obtain ⟨y0, e0, rfl⟩ := h0.ext
    obtain ⟨y1, e1, rfl⟩ := h1.ext
    obtain ⟨y2, e2, rfl⟩ := h2.ext
    obtain ⟨y3, e3, rfl⟩ := h3.ext
    refine extracts_last (y := "{" ++ y0 ++ ":" ++ y1 ++ " for " ++ strJoin " " [y2 ++ " in " ++ y3] ++ "}") ?_ ?_
    · unfold fItem; rw [hk]; simp only [fOne_eq hkey, fOne_eq he, e0, fAll_eq, e1, allOk_gen hg gk gx e2 gi e3]; rfl
    · simp only [String.toList_append, compact_append, strJoin_compact, sepBy, List.map_cons, List.map_nil, List.intersperse_singleton, List.flatten_cons, List.flatten_nil, List.append_nil]
      simp [show compact ['{'] = ['{'] by decide, show compact ['}'] = ['}'] by decide, show compact [':'] = [':'] by decide, show compact [' ', 'f', 'o', 'r', ' '] = ['f', 'o', 'r'] by decide, show compact [' ', 'i', 'n', ' '] = ['i', 'n'] by decide]
  | @generatorExp n g x i e t u v hk he _ hg gk gx _ gi _ gs h1 h2 h3 =>
    obtain ⟨y1, e1, rfl⟩ := h1.ext
    obtain ⟨y2, e2, rfl⟩ := h2.ext
    obtain ⟨y3, e3, rfl⟩ := h3.ext
    refine extracts_last (y := "(" ++ y1 ++ " for " ++ strJoin " " [y2 ++ " in " ++ y3] ++ ")") ?_ ?_
    · unfold fItem; rw [hk]; simp only [fOne_eq he, fAll_eq, e1, allOk_gen hg gk gx e2 gi e3]; rfl
    · simp only [String.toList_append, compact_append, strJoin_compact, sepBy, List.map_cons, List.map_nil, List.intersperse_singleton, List.flatten_cons, List.flatten_nil, List.append_nil]
      simp only [← List.append_assoc]
      exact List.append_nil _
  | @call n f a hk hf ha hkw _ h1 =>
    obtain ⟨y1, e1, rfl⟩ := h1.ext
    refine ⟨⟨y1 ++ "()", ?_, ?_⟩, fun _ h => absurd hk h⟩
    · have : fItem ms n (fInfos ms n.kids) = .ok ⟨[some (y1 ++ "()")], true, true⟩ := by
        unfold fItem; rw [hk]; simp only [ha, hkw, fOne_eq hf, e1]; rfl
      rw [extract_eq, this]
      simp [fWalk, fResult, strJoin, join]
    · simp [String.toList_append, compact_append, show compact ['(', ')'] = [] by decide]
  | @callArg n f e x c a hk hks hf he hfk hfks _ hna hnc h1 =>
    obtain ⟨y, b, h2, h3, rfl⟩ := h1.one hna hnc
    refine ⟨⟨x ++ "(" ++ y ++ ")", ?_, ?_⟩, fun _ h => absurd hk h⟩
    · exact extract_arg hk (.inl (by unfold Node.fields; rw [hks]; simp [hf, he])) hks hfk hfks h2 h3
    · simp only [String.toList_append, compact_append, show compact "(".toList = [] by decide, show compact ")".toList = [] by decide, List.append_nil]
  | @callKeyword n f w e x k c a hk hks hf hw hfk hfks hwk hwe _ h1 =>
    obtain ⟨y1, e1, rfl⟩ := h1.ext
    refine ⟨⟨x ++ "(" ++ (k ++ "=" ++ y1) ++ ")", ?_, ?_⟩, fun _ h => absurd hk h⟩
    · refine extract_arg hk (.inr (by unfold Node.fields; rw [hks]; simp [hf, hw])) hks hfk hfks (b := true) ?_ nofun
      unfold fItem; rw [hwk]; simp only [fOne_eq hwe, e1]; rfl
    · simp only [String.toList_append, compact_append, show compact "(".toList = [] by decide, show compact ")".toList = [] by decide,
        show compact "=".toList = ['='] by decide, List.append_nil, List.nil_append, List.append_assoc, List.singleton_append]

end Vermin
