import Verif.Model.Interrupts
import Verif.Props.Program
/-
C82: interrupted runs.
-/
namespace Vermin.Props
open Vermin Vermin.Py Vermin.Spec

/-- A file, what comes of it, and where an interrupt arrives, if any. -/
structure Job where
  path : String
  host : Host
  parse : ParseOut
  halt : Option Halt

/-- What the job yields. -/
def Job.yield (cfg : Config) (j : Job) : Yield := (processHalted cfg j.host j.path j.parse j.halt).2

/-- What it would yield without an interrupt. -/
def Job.result (cfg : Config) (j : Job) : FileOut := (processIndividual cfg j.host j.path j.parse).2

/-- An interrupt arrives while the file is analysed. -/
def Job.Reaches (j : Job) (k : Halt) : Prop := j.halt = some k ∧ (k = .reading ∨ ∃ node toks, j.parse = .ok node toks)

theorem firstStop_done : ∀ outs : List FileOut, firstStop (outs.map .done) = (firstError outs).map some
  | [] => rfl
  | .error e :: _ => rfl
  | .ok _ :: outs => firstStop_done outs

theorem haltLoop_done (cfg : Config) : ∀ (outs : List FileOut) (a : ProcAcc), haltLoop cfg a (outs.map .done) = procLoop cfg a outs
  | [], _ => rfl
  | .error _ :: _, _ => rfl
  | .ok _ :: outs, _ => haltLoop_done cfg outs _

/-- **C82.** Without interrupts the run is the usual one. -/
theorem C82_uninterrupted (cfg : Config) (versions : Bool) (h1 : cfg.processes = 1) (outs : List FileOut) :
    mainStopped cfg versions (outs.map .done) = mainRun cfg versions outs := by
  unfold mainStopped mainRun processStopped
  rw [List.length_map, localConfig_processes, h1, if_pos rfl, firstStop_done, haltLoop_done]
  unfold processSeq
  split
  · rfl
  · cases firstError outs with
    | none => dsimp only [Option.map]; cases procEnd (localConfig cfg) (procLoop (localConfig cfg) ProcAcc.init outs) <;> rfl
    | some e => dsimp only [Option.map]; cases procEnd (localConfig cfg) (ProcAcc.init, some e) <;> rfl

theorem firstStop_interrupted {ys : List Yield} : ∀ pre : List Yield, (∀ y ∈ pre, y ≠ .interrupted ∧ ∀ e, y ≠ .done (.error e)) →
    firstStop (pre ++ ys) = firstStop ys
  | [], _ => rfl
  | .interrupted :: _, h => absurd rfl (h _ List.mem_cons_self).1
  | .done (.error e) :: _, h => absurd rfl ((h _ List.mem_cons_self).2 e)
  | .done (.ok _) :: pre, h => firstStop_interrupted pre fun y hy => h y (List.mem_cons_of_mem _ hy)
  | .blank _ _ :: pre, h => firstStop_interrupted pre fun y hy => h y (List.mem_cons_of_mem _ hy)

/-- **C82.** An interrupt that is not caught while files are analysed, before any exception, ends the run: it says so, says nothing about files or minimum
versions, and its exit code is 1. -/
theorem C82_aborts (cfg : Config) (versions : Bool) (pre post : List Yield)
    (h : ∀ y ∈ pre, y ≠ .interrupted ∧ ∀ e, y ≠ .done (.error e)) :
    mainStopped cfg versions (pre ++ .interrupted :: post) = .ok (nprint cfg "Aborting..", 1) := by
  unfold mainStopped processStopped
  rw [firstStop_interrupted pre h, if_neg (by simp)]
  rfl

/-- **C82.** With several processes, what is said about the files that were finished remains, and the exit code is 1; nothing is said about minimum
versions. -/
theorem C82_several (cfg : Config) (l : List (Option ProcRes)) :
    mainInterrupted cfg l = ((processed (localConfig cfg) l).out ++ (if cfg.quiet = true then [] else ["Aborting..\n"]), 1) := by
  unfold mainInterrupted nprint
  cases cfg.quiet <;> rfl

theorem firstStop_none : ∀ {ys : List Yield}, firstStop ys = none ↔ ∀ y ∈ ys, y ≠ .interrupted ∧ ∀ e, y ≠ .done (.error e)
  | [] => ⟨fun _ => nofun, fun _ => rfl⟩
  | .interrupted :: _ => ⟨nofun, fun h => absurd rfl (h _ List.mem_cons_self).1⟩
  | .done (.error e) :: _ => ⟨nofun, fun h => absurd rfl ((h _ List.mem_cons_self).2 e)⟩
  | .done (.ok r) :: ys => by
    rw [List.forall_mem_cons]
    exact ⟨fun h => ⟨⟨nofun, nofun⟩, (firstStop_none (ys := ys)).mp h⟩, fun h => (firstStop_none (ys := ys)).mpr h.2⟩
  | .blank a b :: ys => by
    rw [List.forall_mem_cons]
    exact ⟨fun h => ⟨⟨nofun, nofun⟩, (firstStop_none (ys := ys)).mp h⟩, fun h => (firstStop_none (ys := ys)).mpr h.2⟩

theorem haltLoop_blank {cfg : Config} : ∀ {ys : List Yield} {a : ProcAcc}, (∀ y ∈ ys, y ≠ .interrupted ∧ ∀ e, y ≠ .done (.error e)) →
    (∃ p l, Yield.blank p l ∈ ys) → ∃ a', haltLoop cfg a ys = (a', some .assertion)
  | [], _, _, ⟨_, _, h⟩ => nomatch h
  | .interrupted :: _, _, h, _ => absurd rfl (h _ List.mem_cons_self).1
  | .done (.error e) :: _, _, h, _ => absurd rfl ((h _ List.mem_cons_self).2 e)
  | .blank _ _ :: _, a, _, _ => ⟨a, rfl⟩
  | .done (.ok r) :: ys, _, h, ⟨p, l, hb⟩ =>
    haltLoop_blank (ys := ys) (fun y hy => h y (List.mem_cons_of_mem _ hy)) ⟨p, l, (List.mem_cons.mp hb).resolve_left nofun⟩

/-- **C82.** An interrupt while a file is visited is caught, and ends the run with a failed assertion later. -/
theorem C82_visiting (cfg : Config) (versions : Bool) (ys : List Yield) (h : ∀ y ∈ ys, y ≠ .interrupted ∧ ∀ e, y ≠ .done (.error e))
    (hb : ∃ p l, Yield.blank p l ∈ ys) : mainStopped cfg versions ys = .error .assertion := by
  unfold mainStopped processStopped
  obtain ⟨a, ha⟩ := haltLoop_blank (cfg := localConfig cfg) (a := ProcAcc.init) h hb
  rw [firstStop_none.mpr h]
  dsimp only
  rw [ha, if_neg]
  · rfl
  · intro h0
    obtain ⟨p, l, hb⟩ := hb
    rw [List.length_eq_zero_iff.mp h0] at hb
    cases hb

theorem processed_lost (cfg : Config) (l₁ l₂ : List (Option ProcRes)) (path : String) :
    (processed cfg (l₁ ++ some (ProcRes.empty path) :: l₂)).mins = (processed cfg (l₁ ++ l₂)).mins := by
  show ((l₁ ++ some (ProcRes.empty path) :: l₂).foldl (procStep cfg) ProcAcc.init).mins = ((l₁ ++ l₂).foldl (procStep cfg) ProcAcc.init).mins
  rw [List.foldl_append, List.foldl_append, List.foldl_cons]
  have key : ∀ (l : List (Option ProcRes)) (a a' : ProcAcc), a.mins = a'.mins →
      (l.foldl (procStep cfg) a).mins = (l.foldl (procStep cfg) a').mins := by
    intro l
    induction l with
    | nil => exact fun a a' h => h
    | cons r l ih =>
      intro a a' h
      refine ih _ _ ?_
      rw [procStep_mins, procStep_mins, h]
  exact key l₂ _ _ (by rw [procStep_mins]; rfl)

/-- What is yielded if nothing is raised. -/
def okYields (l : List (Option ProcRes)) : List Yield := (okOuts l).map .done

/-- **C82.** An interrupt while a file is read is caught, and the run goes on: the file is called incompatible, and the exit code is the one without it. -/
theorem C82_reading {cfg : Config} {versions : Bool} (h1 : cfg.processes = 1) {l₁ l₂ : List (Option ProcRes)} {path : String} {out : List String} {code : Nat}
    (h : mainStopped cfg versions (okYields (l₁ ++ some (ProcRes.empty path) :: l₂)) = .ok (out, code)) :
    (cfg.ignoreIncomp = false → cfg.quiet = false → "File with incompatible versions: " ++ path ++ "\n" ∈ out) ∧
    ∀ out' code', l₁ ++ l₂ ≠ [] → mainStopped cfg versions (okYields (l₁ ++ l₂)) = .ok (out', code') → code = code' := by
  unfold okYields at *
  rw [C82_uninterrupted cfg versions h1] at h
  constructor
  · intro hi hq
    obtain ⟨rep, -, rfl⟩ := mainRun_okOuts (by simp) h
    have hq' : (localConfig cfg).quiet = false := by unfold localConfig; split <;> first | exact hq | rfl
    have hline : incompatibleLine (ProcRes.empty path) = "File with incompatible versions: " ++ path ++ "\n" := by
      unfold incompatibleLine ProcRes.empty
      dsimp only
      rw [if_pos rfl, String.append_empty]
    have hn : (ProcRes.empty path).mins = none := rfl
    rw [← hline]
    generalize ProcRes.empty path = f at *
    obtain ⟨o, ho⟩ := out_kept (localConfig cfg) (l₁ ++ [some f]) l₂
    rw [List.append_assoc] at ho
    rw [show l₁ ++ some f :: l₂ = l₁ ++ ([some f] ++ l₂) from rfl, ho, C61_incompatible (localConfig cfg) l₁ f hn,
      if_neg (by rw [hq', localConfig_ignoreIncomp, hi]; simp)]
    simp
  · intro out' code' hne h'
    rw [C82_uninterrupted cfg versions h1] at h'
    rw [code_eq (by simp) h, code_eq hne h', processed_lost]

theorem mem_yield {cfg : Config} {js : List Job} {y : Yield} : y ∈ js.map (Job.yield cfg) ↔ ∃ j ∈ js, j.yield cfg = y := List.mem_map

/-- **C82 (partial).** If a run with one process has exit code 0, and no exception, then no interrupt has arrived while files were visited or results were computed.
Missing: interrupts while files are read, where it is false, see `C82_false`. -/
theorem C82_clean_partial {cfg : Config} {versions : Bool} {js : List Job} {out : List String}
    (hok : ∀ j ∈ js, ∃ r, j.result (localConfig cfg) = .ok r)
    (h : mainStopped cfg versions (js.map (Job.yield (localConfig cfg))) = .ok (out, 0)) :
    ∀ j ∈ js, ¬ j.Reaches .visiting ∧ ¬ j.Reaches .finishing := by
  have nerr : ∀ y ∈ js.map (Job.yield (localConfig cfg)), ∀ e, y ≠ .done (.error e) := by
    intro y hy e he
    obtain ⟨j, hj, rfl⟩ := List.mem_map.mp hy
    obtain ⟨r, hr⟩ := hok j hj
    unfold Job.yield at he
    unfold Job.result at hr
    obtain ⟨path, host, p, k⟩ := j
    dsimp only at hr he
    cases k with
    | none => rw [processHalted] at he; dsimp only at he; rw [hr] at he; cases he
    | some k =>
      cases p with
      | ok node toks =>
        unfold processIndividual analyse at hr
        dsimp only at hr
        cases hb : badPath (localConfig cfg) path with
        | true => rw [hb, if_pos rfl] at hr; cases hr
        | false =>
          rw [hb] at hr
          simp only [Bool.false_eq_true, if_false] at hr
          cases k with
          | reading => cases he
          | visiting => simp only [processHalted, hb, Bool.false_eq_true, if_false] at he; cases he
          | finishing =>
            simp only [processHalted, hb, Bool.false_eq_true, if_false] at he
            cases ht : tour (Env.make (localConfig cfg) host path toks) node S.init with
            | error e => rw [ht] at hr; cases hr
            | ok s => rw [ht] at he; cases he
      | _ => cases k <;> cases he
  have hint : Yield.interrupted ∉ js.map (Job.yield (localConfig cfg)) := by
    intro hm
    obtain ⟨pre, post, he, hn⟩ : ∃ pre post, js.map (Job.yield (localConfig cfg)) = pre ++ .interrupted :: post ∧ Yield.interrupted ∉ pre :=
      List.eq_append_cons_of_mem hm
    rw [he, C82_aborts cfg versions pre post fun y hy => ⟨fun e => hn (e ▸ hy), nerr y (he ▸ List.mem_append_left _ hy)⟩] at h
    injection h with h
    injection h with _ h
    cases h
  have hbl : ∀ p l, Yield.blank p l ∉ js.map (Job.yield (localConfig cfg)) := by
    intro p l hm
    rw [C82_visiting cfg versions _ (fun y hy => ⟨fun e => hint (e ▸ hy), nerr y hy⟩) ⟨p, l, hm⟩] at h
    cases h
  intro j hj
  obtain ⟨r, hr⟩ := hok j hj
  constructor
  · rintro ⟨hh, h' | ⟨node, toks, hp⟩⟩
    · cases h'
    · refine hbl j.path (Env.make (localConfig cfg) j.host j.path toks).noLines (List.mem_map.mpr ⟨j, hj, ?_⟩)
      unfold Job.result processIndividual at hr
      unfold Job.yield processHalted
      rw [hh, hp]
      rw [hp] at hr
      dsimp only at hr ⊢
      split
      · rename_i hb; rw [hb, if_pos rfl] at hr; cases hr
      · rfl
  · rintro ⟨hh, h' | ⟨node, toks, hp⟩⟩
    · cases h'
    · refine hint (List.mem_map.mpr ⟨j, hj, ?_⟩)
      unfold Job.result processIndividual analyse at hr
      unfold Job.yield processHalted
      rw [hh, hp]
      rw [hp] at hr
      dsimp only at hr ⊢
      split
      · rename_i hb; rw [hb, if_pos rfl] at hr; cases hr
      · rename_i hb
        rw [if_neg hb] at hr
        cases ht : tour (Env.make (localConfig cfg) j.host j.path toks) node S.init with
        | error e => rw [ht] at hr; cases hr
        | ok s => rfl

/-- The settings of the example -/
def haltCfg : Config := { Config.init 1 with targets := [(false, ⟨3, 0⟩)] }

/-- Two files; the interrupt arrives while the second one is read. -/
def haltJobs : List Job :=
  [{ path := "a.py", host := exampleHost, parse := .ok nonlocalProg [], halt := none },
   { path := "b.py", host := exampleHost, parse := .ok nonlocalProg [], halt := some .reading }]

/-- C82 is false: the run reports versions, and its exit code is 0. -/
theorem C82_false : ∃ out, mainStopped haltCfg false (haltJobs.map (Job.yield (localConfig haltCfg))) = .ok (out, 0) ∧
    "File with incompatible versions: b.py\n" ∈ out ∧ "Minimum required versions: 3.0\n" ∈ out := by
  have h1 : haltJobs.map (Job.yield (localConfig haltCfg)) = [.done (.ok (some
      { path := "a.py", mins := some ⟨none, some ⟨3, 0⟩⟩, text := "", novermin := [], bps := [], maybeAnnotations := false })),
      .done (.ok (some (ProcRes.empty "b.py")))] := by decide +kernel
  rw [h1]
  exact ⟨_, rfl, by decide +kernel, by decide +kernel⟩

/-- Interrupts elsewhere: the run says that it is aborted, or fails. -/
theorem C82_witness :
    mainStopped haltCfg false ((haltJobs.map fun j => { j with halt := some .finishing }).map (Job.yield (localConfig haltCfg))) = .ok (["Aborting..\n"], 1) ∧
    mainStopped haltCfg false ((haltJobs.map fun j => { j with halt := j.halt.map fun _ => .visiting }).map (Job.yield (localConfig haltCfg))) =
      .error .assertion := by
  have h1 : (haltJobs.map fun j => { j with halt := some .finishing }).map (Job.yield (localConfig haltCfg)) = [.interrupted, .interrupted] := by
    decide +kernel
  have h2 : (haltJobs.map fun j => { j with halt := j.halt.map fun _ => .visiting }).map (Job.yield (localConfig haltCfg)) = [.done (.ok (some
      { path := "a.py", mins := some ⟨none, some ⟨3, 0⟩⟩, text := "", novermin := [], bps := [], maybeAnnotations := false })), .blank "b.py" []] := by
    decide +kernel
  rw [h1, h2]
  exact ⟨by decide +kernel, by decide +kernel⟩

end Vermin.Props
