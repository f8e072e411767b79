import Verif.Props.Help
import Verif.Props.Minimum
import Verif.Props.Parser
import Verif.Props.Processor
import Verif.Props.Formats
import Verif.Lemmas.Int
/-
What is printed in rarer situations: the output after it was already asked for (C38), the message of a syntax error (C23), the message of a
`RuntimeError` (C18), and the lists in the help (C78).
-/
namespace Vermin.Props
open Vermin Vermin.Py Vermin.Spec

/-! ### The output, asked for again -/

theorem key_preord (f : String → Nat) : IsPreord (fun a b : String => decide (f a ≤ f b)) :=
  ⟨fun a b => by simp; omega, fun a b c => by simp; omega⟩

theorem sortOutputLines_sorted (cfg : Config) (l : List String) : sortOutputLines cfg (sortOutputLines cfg l) = sortOutputLines cfg l := by
  unfold sortOutputLines
  split
  · split
    · exact sort_of_sorted (sort_sorted (key_preord fun a => sortLineColumn a.toList) l)
    · exact sort_of_sorted (sort_sorted leStr_preord l)
  · exact sort_of_sorted (sort_sorted (key_preord fun a => sortLineColumnParsable a.toList) l)

/-- **C38.** Asking for the output stores the sorted lines; asked again, the output is the same.  Lists with the same elements, each once, are
enumerated alike. -/
theorem C38_output {env : Env} (ho : ∀ l, (env.order l).Perm l) (hs : ∀ l l', l.Nodup → l.Perm l' → env.order l = env.order l') (s : S) :
    outputText env (s.afterOutput env) = outputText env s := by
  have : outputLines env (s.afterOutput env) = outputLines env s := by
    cases hp : env.cfg.printVisits with
    | true =>
      unfold outputLines S.afterOutput outputLines
      simp only [hp, if_true]
      exact sortOutputLines_sorted _ _
    | false =>
      have hperm : (distinct (s.afterOutput env).out).Perm (distinct s.out) := by
        rw [List.perm_ext_iff_of_nodup (distinct_nodup _) (distinct_nodup _)]
        intro x
        rw [distinct_mem, distinct_mem]
        exact (C38_once ho s).1 x
      show sortOutputLines env.cfg (if env.cfg.printVisits then _ else _) = sortOutputLines env.cfg (if env.cfg.printVisits then _ else _)
      rw [hp]
      simp only [Bool.false_eq_true, if_false]
      rw [hs _ _ (distinct_nodup _) hperm]
  unfold outputText
  rw [this]

/-- Example: two lines, of which one was recorded twice. -/
theorem C38_output_witness :
    let env : Env := { exampleEnv (Config.init 1) with order := fun l => sort leStr l }
    let s : S := { S.init with out := ["b", "a", "b"] }
    (∀ l, (env.order l).Perm l) ∧ (∀ l l', l.Nodup → l.Perm l' → env.order l = env.order l') ∧ outputText env s = "a\nb\n" ∧
    (s.afterOutput env).out = ["a", "b"] := by
  refine ⟨fun l => sort_perm l, fun l l' _ h => sort_eq_of_perm leStr_preord h (fun _ _ _ _ => leStr_antisymm), by decide +kernel, by decide +kernel⟩

/-! ### The message of a syntax error -/

/-- `t` without the white space at its ends. -/
def Stripped (t b : List Char) : Prop :=
  ∃ l r, t = l ++ b ++ r ∧ (∀ c ∈ l ++ r, Space c) ∧ (∀ c, b.head? = some c → ¬ Space c) ∧ (∀ c, b.getLast? = some c → ¬ Space c)

/-- The source line of the error as it is shown: stripped, and without newlines in the parsable format. -/
def ShownText (cfg : Config) (e : SynErr) (t : List Char) : Prop :=
  ∃ b, Stripped (e.text.elim [] String.toList) b ∧ t = if cfg.format = .parsable then Escaped b else b

theorem dropWhile_headed {p : Char → Bool} : ∀ {l : List Char} {c : Char}, (l.dropWhile p).head? = some c → p c = false
  | [], _, h => by cases h
  | x :: l, c, h => by
    rw [List.dropWhile_cons] at h
    split at h
    · exact dropWhile_headed h
    · cases h; simp_all

theorem dropWhile_lasts {p : Char → Bool} {l : List Char} {c : Char} (h : (l.dropWhile p).getLast? = some c) : l.getLast? = some c := by
  have e := List.takeWhile_append_dropWhile (p := p) (l := l)
  rw [← e, List.getLast?_append, h]
  rfl

theorem stripped_strip (t : List Char) : Stripped t (strip t) := by
  obtain ⟨l, r, h, hl, hr⟩ := strip_decomp t
  refine ⟨l, r, h, fun c hc => (space_iff c).mp ((List.mem_append.mp hc).elim (hl c) (hr c)), fun c hc hs => ?_, fun c hc hs => ?_⟩
  · have : (lstrip t).head? = some c := by
      unfold strip rstrip at hc
      rw [List.head?_reverse] at hc
      have := dropWhile_lasts hc
      rwa [List.getLast?_reverse] at this
    have k := dropWhile_headed this
    rw [(space_iff c).mpr hs] at k; cases k
  · unfold strip rstrip at hc
    rw [List.getLast?_reverse] at hc
    have k := dropWhile_headed hc
    rw [(space_iff c).mpr hs] at k; cases k

theorem shown_synText (cfg : Config) (e : SynErr) : ShownText cfg e (synText cfg e) := by
  unfold ShownText synText
  refine ⟨strip (e.text.elim [] String.toList), stripped_strip _, ?_⟩
  cases e.text with
  | none => dsimp only [Option.elim]; rw [escaped_eq]; rfl
  | some t => dsimp only [Option.elim]; rw [escaped_eq]

/-- **C23.** At verbosity 2 and above, unless quiet, exactly one message is printed: the position, the versions in the parsable format, what
was concluded, and the source line.  Otherwise nothing is. -/
theorem C23_message (cfg : Config) (major : Nat) (e : SynErr) :
    ((cfg.verbose < 2 ∨ cfg.quiet = true) → (detectSyntaxError cfg major e).1 = []) ∧
    (2 ≤ cfg.verbose → cfg.quiet = false → ∃ vs what t, ShownText cfg e t ∧ (detectSyntaxError cfg major e).1 = [e.loc ++ ":" ++ vs ++ what ++ "\n"] ∧
      (cfg.format ≠ .parsable → vs = "") ∧
      (PrintMessage e → what = "info: `" ++ String.ofList t ++ "` requires 2.0" ∧ (cfg.format = .parsable → vs = "2.0:!3:")) ∧
      (¬ PrintMessage e → AliasMessage cfg e → what = "info: type alias statement `" ++ String.ofList t ++ "` requires !2, 3.12" ∧
        (cfg.format = .parsable → vs = "!2:3.12:")) ∧
      (¬ PrintMessage e → ¬ AliasMessage cfg e → what = "error: " ++ e.msg ++ ": " ++ String.ofList t ∧
        (cfg.format = .parsable → (cfg.pessimistic = false → vs = "~2:~3:") ∧ (cfg.pessimistic = true → major = 2 → vs = "!2:~3:") ∧
          (cfg.pessimistic = true → major = 3 → vs = "~2:!3:")))) := by
  have hp : isSub "missing parentheses in call to 'print'".toList (lower e.msg.toList) = true ↔ PrintMessage e := isSub_iff_infix _ _
  have ha : (lower e.msg.toList = "invalid syntax".toList ∧ isTypeAliasText (synText cfg e) = true) ↔ AliasMessage cfg e := by
    rw [isTypeAliasText_iff]; rfl
  have hv : ∀ m, (cfg.verbose < 2 ∨ cfg.quiet = true) → vvprintMsg cfg m = [] := by
    intro m h
    unfold vvprintMsg
    rw [if_neg]
    rintro ⟨h1, h2⟩
    rcases h with h | h
    · omega
    · exact h2 h
  have hw : ∀ m, 2 ≤ cfg.verbose → cfg.quiet = false → vvprintMsg cfg m = [m ++ "\n"] := by
    intro m h h'
    unfold vvprintMsg
    rw [if_pos ⟨h, by simp [h']⟩]
  have ht := shown_synText cfg e
  by_cases h1 : PrintMessage e
  · simp only [detectSyntaxError, if_pos (hp.mpr h1)]
    refine ⟨hv _, fun h h' => ⟨ifParsable cfg "2.0:!3:", _, _, ht, ?_, ?_, fun _ => ⟨rfl, ?_⟩, fun h => absurd h1 h, fun h => absurd h1 h⟩⟩
    · rw [hw _ h h']; simp only [String.append_assoc]
    · intro h; unfold ifParsable; rw [if_neg h]
    · intro h; unfold ifParsable; rw [if_pos h]
  · by_cases h2 : AliasMessage cfg e
    · simp only [detectSyntaxError, if_neg (fun x => h1 (hp.mp x)), if_pos (ha.mpr h2)]
      refine ⟨hv _, fun h h' => ⟨ifParsable cfg "!2:3.12:", _, _, ht, ?_, ?_, fun h => absurd h h1, fun _ _ => ⟨rfl, ?_⟩, fun _ h => absurd h2 h⟩⟩
      · rw [hw _ h h']; simp only [String.append_assoc]
      · intro h; unfold ifParsable; rw [if_neg h]
      · intro h; unfold ifParsable; rw [if_pos h]
    · simp only [detectSyntaxError, if_neg (fun x => h1 (hp.mp x)), if_neg (fun x => h2 (ha.mp x))]
      refine ⟨hv _, fun h h' => ⟨ifParsable cfg (reqString (synMins cfg major) ":" ++ ":"), _, _, ht, ?_, ?_, fun h => absurd h h1,
        fun _ h => absurd h h2, fun _ _ => ⟨rfl, ?_⟩⟩⟩
      · rw [hw _ h h']; simp only [String.append_assoc]
      · intro h; unfold ifParsable; rw [if_neg h]
      · intro h; unfold ifParsable; rw [if_pos h]
        refine ⟨fun hq => ?_, fun hq hm => ?_, fun hq hm => ?_⟩
        · simp only [synMins, hq, Bool.false_eq_true, if_false]; decide +kernel
        · simp only [synMins, hq, hm]; decide +kernel
        · simp only [synMins, hq, hm]; decide +kernel

/-- Example: the message of an error at verbosity 2, in the default format. -/
theorem C23_message_witness : let cfg := { Config.init 1 with verbose := 2 }
    (detectSyntaxError cfg 3 ⟨some " a b\n", "invalid syntax", "f.py:1:3"⟩).1 = ["f.py:1:3:error: invalid syntax: a b\n"] := by decide +kernel

/-! ### `RuntimeError` -/

theorem runtime_text : runtimeMsg ++ "\n" = "RuntimeError: If running `Processor.process()` outside of\n`if __name__ == \"__main__\":` it, or the code calling it, must be done within it instead.\n" := by
  decide +kernel

/-- What is printed about a `RuntimeError`, unless quiet. -/
def runtimeHint (cfg : Config) : List String := if cfg.quiet then [] else
  ["RuntimeError: If running `Processor.process()` outside of\n`if __name__ == \"__main__\":` it, or the code calling it, must be done within it instead.\n"]

/-- **C18.** A `RuntimeError` while files are processed does not end the run.  With one process nothing but the hint about `__main__` is printed;
with several, the hint follows what is printed for the files before. -/
theorem C18_runtime (cfg : Config) (pre : List (Option ProcRes)) (post : List FileOut) :
    (∃ r, processSeq cfg (okOuts pre ++ .error .runtimeError :: post) = .ok r ∧ r.out = runtimeHint cfg) ∧
    ∃ r r', processPar cfg (okOuts pre ++ .error .runtimeError :: post) = .ok r ∧ processPar cfg (okOuts pre) = .ok r' ∧
      r.out = r'.out ++ runtimeHint cfg := by
  have hn : nprint cfg runtimeMsg = runtimeHint cfg := by
    unfold nprint runtimeHint
    rw [runtime_text]
  refine ⟨⟨_, by rw [processSeq, firstError_split]; rfl, ?_⟩, _, _, by rw [processPar, procLoop_split]; rfl, by rw [processPar, procLoop_okOuts]; rfl, ?_⟩
  · show [] ++ nprint cfg runtimeMsg = _
    rw [hn]; rfl
  · show _ ++ nprint cfg runtimeMsg = _
    rw [hn]

/-! ### Lists in the help -/

/-- Entries with descriptions of one or several lines: the names are indented by `indent`, and each line of a description begins in column `w`. -/
inductive Aligned (indent w : Nat) : List (String × List String) → List (List Char) → Prop
  | nil : Aligned indent w [] []
  | cons {name : String} {d : String} {ds : List String} {gap : Nat} {es : List (String × List String)} {ls : List (List Char)} :
      indent + name.toList.length + gap + 3 = w → Aligned indent w es ls →
      Aligned indent w ((name, d :: ds) :: es) ((List.replicate indent ' ' ++ name.toList ++ List.replicate gap ' ' ++ " - ".toList ++ d.toList) ::
        (ds.map fun x => List.replicate w ' ' ++ x.toList) ++ ls)

theorem longest_ge {t : String} : ∀ {l : List String} {n : Nat}, t ∈ l ∨ t.toList.length ≤ n → t.toList.length ≤ l.foldl (fun n t => max n t.toList.length) n
  | [], n, h => by
    rcases h with h | h
    · cases h
    · exact h
  | x :: l, n, h => by
    rw [List.foldl_cons]
    apply longest_ge
    rcases h with h | h
    · rcases List.mem_cons.mp h with rfl | h
      · right; omega
      · exact .inl h
    · right; omega

theorem aligned_of {titles : List String} {indent : Nat} : ∀ {pairs : List (String × List String)},
    (∀ p ∈ pairs, p.1 ∈ titles ∧ p.2 ≠ []) → Aligned indent (indent + longestTitle titles + 3) pairs (titleDescLines pairs titles indent)
  | [], _ => .nil
  | (name, []) :: _, h => absurd rfl (h _ (List.mem_cons_self ..)).2
  | (name, d :: ds) :: es, h => by
    have hl : name.toList.length ≤ longestTitle titles := longest_ge (.inl (h _ (List.mem_cons_self ..)).1)
    have k := aligned_of (titles := titles) (indent := indent) (fun p hp => h p (List.mem_cons_of_mem _ hp))
    have := Aligned.cons (indent := indent) (w := indent + longestTitle titles + 3) (name := name) (d := d) (ds := ds)
      (gap := longestTitle titles - name.toList.length) (by omega) k
    have e : (titleText (longestTitle titles) indent name).length = indent + longestTitle titles + 3 := by
      unfold titleText filled
      simp only [List.length_append, List.length_replicate]
      rw [show " - ".toList.length = 3 by decide]
      omega
    have e2 : titleDescLines ((name, d :: ds) :: es) titles indent =
        ((List.replicate indent ' ' ++ name.toList ++ List.replicate (longestTitle titles - name.toList.length) ' ' ++ " - ".toList ++ d.toList) ::
        (ds.map fun x => List.replicate (indent + longestTitle titles + 3) ' ' ++ x.toList) ++ titleDescLines es titles indent) := by
      unfold titleDescLines
      rw [List.flatMap_cons]
      congr 1
      unfold titleLines
      simp only [e]
      congr 1
      simp [titleText, filled]
    rw [e2]
    exact this

/-- **C78.** In each list of the help, of formats, of features and of backports (all, or the versions of one), the descriptions begin in the
same column. -/
theorem C78_aligned (indent : Nat) : (∃ w, Aligned indent w formatInfos (formatsLines indent)) ∧
    (∃ w, Aligned indent w featureInfos (featuresLines indent)) ∧
    ∀ l : List (BackportRow × String), (∀ r ∈ l, r.1 ∈ backports) →
      ∃ w, Aligned indent w (l.map fun r => (r.1.1, [r.2 ++ " (" ++ reqString r.1.2 ++ ")"])) (backportsLines indent l) := by
  refine ⟨⟨_, aligned_of fun p hp => ⟨?_, ?_⟩⟩, ⟨_, aligned_of fun p hp => ?_⟩, fun l hl => ⟨_, aligned_of fun p hp => ?_⟩⟩
  · exact List.mem_map_of_mem hp
  · revert p; decide +kernel
  · revert p; decide +kernel
  · obtain ⟨r, hr, rfl⟩ := List.mem_map.mp hp
    exact ⟨List.mem_map_of_mem (hl r hr), List.cons_ne_nil _ _⟩

/-- Example: in the list of formats the descriptions begin behind the longer name. -/
theorem C78_aligned_witness : (formatsLines 2).take 2 = ["  default  - Default formatting.".toList,
    "  parsable - Each result is on form 'file:line:column:py2:py3:feature'. The".toList] := by decide +kernel

end Vermin.Props
