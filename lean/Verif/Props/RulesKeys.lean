import Verif.Lemmas.Rules
import Verif.Lemmas.RulesCodes
import Verif.Model.RulesMod
import Verif.Model.RulesMem
import Verif.Model.RulesKw
/- C13: the keys of the rule tables are distinct. -/
namespace Vermin.Props
open Vermin Vermin.Data
set_option maxRecDepth 2000

theorem mod_keys0 : modReqs0.map Prod.fst = modReqsCodes0.map decStr := by rfl
theorem mod_keys1 : modReqs1.map Prod.fst = modReqsCodes1.map decStr := by rfl

theorem mod_keys : modReqsChunks.map (·.map Prod.fst) = modReqsCodesChunks.map (·.map decStr) := by
  simp only [modReqsChunks, modReqsCodesChunks, List.map_cons, List.map_nil, mod_keys0, mod_keys1]

theorem mod_ok : modReqsCodesChunks.all (·.all (digitsOk 100)) = true := by decide +kernel
theorem mod_distinct : distinctMod modReqsModulus 0 modReqsCodesChunks.flatten = true := by decide +kernel

theorem mem_keys0 : memReqs0.map Prod.fst = memReqsCodes0.map decStr := by rfl
theorem mem_keys1 : memReqs1.map Prod.fst = memReqsCodes1.map decStr := by rfl
theorem mem_keys2 : memReqs2.map Prod.fst = memReqsCodes2.map decStr := by rfl
theorem mem_keys3 : memReqs3.map Prod.fst = memReqsCodes3.map decStr := by rfl
theorem mem_keys4 : memReqs4.map Prod.fst = memReqsCodes4.map decStr := by rfl
theorem mem_keys5 : memReqs5.map Prod.fst = memReqsCodes5.map decStr := by rfl
theorem mem_keys6 : memReqs6.map Prod.fst = memReqsCodes6.map decStr := by rfl
theorem mem_keys7 : memReqs7.map Prod.fst = memReqsCodes7.map decStr := by rfl
theorem mem_keys8 : memReqs8.map Prod.fst = memReqsCodes8.map decStr := by rfl
theorem mem_keys9 : memReqs9.map Prod.fst = memReqsCodes9.map decStr := by rfl
theorem mem_keys10 : memReqs10.map Prod.fst = memReqsCodes10.map decStr := by rfl
theorem mem_keys11 : memReqs11.map Prod.fst = memReqsCodes11.map decStr := by rfl
theorem mem_keys12 : memReqs12.map Prod.fst = memReqsCodes12.map decStr := by rfl
theorem mem_keys13 : memReqs13.map Prod.fst = memReqsCodes13.map decStr := by rfl
theorem mem_keys14 : memReqs14.map Prod.fst = memReqsCodes14.map decStr := by rfl
theorem mem_keys15 : memReqs15.map Prod.fst = memReqsCodes15.map decStr := by rfl
theorem mem_keys16 : memReqs16.map Prod.fst = memReqsCodes16.map decStr := by rfl
theorem mem_keys17 : memReqs17.map Prod.fst = memReqsCodes17.map decStr := by rfl
theorem mem_keys18 : memReqs18.map Prod.fst = memReqsCodes18.map decStr := by rfl
theorem mem_keys19 : memReqs19.map Prod.fst = memReqsCodes19.map decStr := by rfl
theorem mem_keys20 : memReqs20.map Prod.fst = memReqsCodes20.map decStr := by rfl
theorem mem_keys21 : memReqs21.map Prod.fst = memReqsCodes21.map decStr := by rfl
theorem mem_keys22 : memReqs22.map Prod.fst = memReqsCodes22.map decStr := by rfl
theorem mem_keys23 : memReqs23.map Prod.fst = memReqsCodes23.map decStr := by rfl
theorem mem_keys24 : memReqs24.map Prod.fst = memReqsCodes24.map decStr := by rfl
theorem mem_keys25 : memReqs25.map Prod.fst = memReqsCodes25.map decStr := by rfl
theorem mem_keys26 : memReqs26.map Prod.fst = memReqsCodes26.map decStr := by rfl

theorem mem_keys : memReqsChunks.map (·.map Prod.fst) = memReqsCodesChunks.map (·.map decStr) := by
  simp only [memReqsChunks, memReqsCodesChunks, List.map_cons, List.map_nil, mem_keys0, mem_keys1, mem_keys2, mem_keys3, mem_keys4, mem_keys5, mem_keys6, mem_keys7, mem_keys8, mem_keys9, mem_keys10, mem_keys11, mem_keys12, mem_keys13, mem_keys14, mem_keys15, mem_keys16, mem_keys17, mem_keys18, mem_keys19, mem_keys20, mem_keys21, mem_keys22, mem_keys23, mem_keys24, mem_keys25, mem_keys26]

theorem mem_ok : memReqsCodesChunks.all (·.all (digitsOk 100)) = true := by decide +kernel
theorem mem_distinct : distinctMod memReqsModulus 0 memReqsCodesChunks.flatten = true := by decide +kernel

theorem kw_keys0 : kwReqs0.map Prod.fst = kwReqsCodes0.map (decPair 100 · []) := by rfl
theorem kw_keys1 : kwReqs1.map Prod.fst = kwReqsCodes1.map (decPair 100 · []) := by rfl
theorem kw_keys2 : kwReqs2.map Prod.fst = kwReqsCodes2.map (decPair 100 · []) := by rfl
theorem kw_keys3 : kwReqs3.map Prod.fst = kwReqsCodes3.map (decPair 100 · []) := by rfl
theorem kw_keys4 : kwReqs4.map Prod.fst = kwReqsCodes4.map (decPair 100 · []) := by rfl
theorem kw_keys5 : kwReqs5.map Prod.fst = kwReqsCodes5.map (decPair 100 · []) := by rfl
theorem kw_keys6 : kwReqs6.map Prod.fst = kwReqsCodes6.map (decPair 100 · []) := by rfl
theorem kw_keys7 : kwReqs7.map Prod.fst = kwReqsCodes7.map (decPair 100 · []) := by rfl
theorem kw_keys8 : kwReqs8.map Prod.fst = kwReqsCodes8.map (decPair 100 · []) := by rfl

theorem kw_keys : kwReqsChunks.map (·.map Prod.fst) = kwReqsCodesChunks.map (·.map (decPair 100 · [])) := by
  simp only [kwReqsChunks, kwReqsCodesChunks, List.map_cons, List.map_nil, kw_keys0, kw_keys1, kw_keys2, kw_keys3, kw_keys4, kw_keys5, kw_keys6, kw_keys7, kw_keys8]

theorem kw_ok : kwReqsCodesChunks.all (·.all (pairOk 100)) = true := by decide +kernel
theorem kw_distinct : distinctMod kwReqsModulus 0 kwReqsCodesChunks.flatten = true := by decide +kernel

/-- C13: no two entries of the module table have the same key. -/
theorem C13_modules_nodup : (modReqs.map Prod.fst).Nodup :=
  nodup_keys decStr encStr (digitsOk 100) (fun _ h => encStr_decStr h) mod_keys mod_ok mod_distinct
/-- C13: no two entries of the member table have the same key. -/
theorem C13_members_nodup : (memReqs.map Prod.fst).Nodup :=
  nodup_keys decStr encStr (digitsOk 100) (fun _ h => encStr_decStr h) mem_keys mem_ok mem_distinct
/-- C13: no two entries of the keyword argument table have the same key. -/
theorem C13_kwargs_nodup : (kwReqs.map Prod.fst).Nodup :=
  nodup_keys (decPair 100 · []) encPair (pairOk 100) (fun _ h => encPair_decPair h) kw_keys kw_ok kw_distinct

end Vermin.Props
