/-
The names under which metcalcpy/agg_stat_bootstrap.py finds the statistics of objects.
-/
import Verif.Model.Mode
import Verif.Model.ObjectRun

namespace Metcalcpy

/-- The functions `calculate_<name>` of mode_ratio_statistics.py:21-917. -/
def countStats : List (String × ModeStat) :=
  [("ratio_asm_asa", ModeRatio.asm_asa), ("ratio_fsa_asa", ModeRatio.fsa_asa), ("ratio_osa_asa", ModeRatio.osa_asa),
   ("ratio_asu_asa", ModeRatio.asu_asa), ("ratio_fsm_fsa", ModeRatio.fsm_fsa), ("ratio_fsu_fsa", ModeRatio.fsu_fsa),
   ("ratio_osm_osa", ModeRatio.osm_osa), ("ratio_osu_osa", ModeRatio.osu_osa), ("ratio_fsm_asm", ModeRatio.fsm_asm),
   ("ratio_osm_asm", ModeRatio.osm_asm), ("ratio_fsu_asu", ModeRatio.fsu_asu), ("ratio_osu_asu", ModeRatio.osu_asu),
   ("ratio_fsa_aaa", ModeRatio.fsa_aaa), ("ratio_osa_aaa", ModeRatio.osa_aaa), ("ratio_fsa_faa", ModeRatio.fsa_faa),
   ("ratio_fca_faa", ModeRatio.fca_faa), ("ratio_osa_oaa", ModeRatio.osa_oaa), ("ratio_oca_oaa", ModeRatio.oca_oaa),
   ("ratio_fca_aca", ModeRatio.fca_aca), ("ratio_oca_aca", ModeRatio.oca_aca), ("ratio_fsa_osa", ModeRatio.fsa_osa),
   ("ratio_osa_fsa", ModeRatio.osa_fsa), ("ratio_aca_asa", ModeRatio.aca_asa), ("ratio_asa_aca", ModeRatio.asa_aca),
   ("ratio_fca_fsa", ModeRatio.fca_fsa), ("ratio_fsa_fca", ModeRatio.fsa_fca), ("ratio_oca_osa", ModeRatio.oca_osa),
   ("ratio_osa_oca", ModeRatio.osa_oca), ("objhits", ModeRatio.objhits), ("objmisses", ModeRatio.objmisses),
   ("objfas", ModeRatio.objfas), ("objcsi", ModeRatio.objcsi), ("objpody", ModeRatio.objpody),
   ("objfar", ModeRatio.objfar)]

/-- The functions `calculate_<name>` of mode_arearat_statistics.py:22-990. -/
def areaStats : List (String × ModeStat) :=
  [("arearat_fsa_asa", ModeArea.fsa_asa), ("arearat_osa_asa", ModeArea.osa_asa),
   ("arearat_asm_asa", ModeArea.asm_asa), ("arearat_asu_asa", ModeArea.asu_asa),
   ("arearat_fsm_fsa", ModeArea.fsm_fsa), ("arearat_fsu_fsa", ModeArea.fsu_fsa),
   ("arearat_osm_osa", ModeArea.osm_osa), ("arearat_osu_osa", ModeArea.osu_osa),
   ("arearat_fsm_asm", ModeArea.fsm_asm), ("arearat_osm_asm", ModeArea.osm_asm),
   ("arearat_osu_asu", ModeArea.osu_asu), ("arearat_fsa_aaa", ModeArea.fsa_aaa),
   ("arearat_osa_aaa", ModeArea.osa_aaa), ("arearat_fsa_faa", ModeArea.fsa_faa),
   ("arearat_fca_faa", ModeArea.fca_faa), ("arearat_osa_oaa", ModeArea.osa_oaa),
   ("arearat_oca_oaa", ModeArea.oca_oaa), ("arearat_fca_aca", ModeArea.fca_aca),
   ("arearat_oca_aca", ModeArea.oca_aca), ("arearat_fsa_osa", ModeArea.fsa_osa),
   ("arearat_osa_fsa", ModeArea.osa_fsa), ("arearat_aca_asa", ModeArea.aca_asa),
   ("arearat_asa_aca", ModeArea.asa_aca), ("arearat_fca_fsa", ModeArea.fca_fsa),
   ("arearat_fsa_fca", ModeArea.fsa_fca), ("arearat_oca_osa", ModeArea.oca_osa),
   ("arearat_osa_oca", ModeArea.osa_oca), ("objahits", ModeArea.objahits), ("objamisses", ModeArea.objamisses),
   ("objafas", ModeArea.objafas), ("objacsi", ModeArea.objacsi), ("objapody", ModeArea.objapody),
   ("objafar", ModeArea.objafar)]

/-- The functions `calculate_3d_<name>` of mode_3d_ratio_statistics.py; each calls `calculate_<name>` on the 3d objects. -/
def count3dNames : List String :=
  ["ratio_fsa_asa", "ratio_osa_asa", "ratio_asm_asa", "ratio_asu_asa", "ratio_fsm_fsa", "ratio_fsu_fsa",
   "ratio_osm_osa", "ratio_osu_osa", "ratio_fsm_asm", "ratio_osm_asm", "ratio_fsu_asu", "ratio_osu_asu",
   "ratio_fsa_aaa", "ratio_osa_aaa", "ratio_fsa_faa", "ratio_fca_faa", "ratio_osa_oaa", "ratio_oca_oaa",
   "ratio_fca_aca", "ratio_fsa_osa", "ratio_osa_fsa", "ratio_asa_aca", "ratio_fca_fsa", "ratio_fsa_fca",
   "ratio_oca_osa", "ratio_osa_oca", "objhits", "objmisses", "objfas", "objcsi", "objpody", "objfar"]

/-- The functions `calculate_3d_<name>` of mode_3d_volrat_statistics.py with the area statistic each of them calls. -/
def volumeStats : List (String × ModeStat) :=
  [("volrat_fsa_asa", ModeArea.fsa_asa), ("volrat_osa_asa", ModeArea.osa_asa), ("volrat_asm_asa", ModeArea.asm_asa),
   ("volrat_asu_asa", ModeArea.asu_asa), ("volrat_fsm_fsa", ModeArea.fsm_fsa), ("volrat_fsu_fsa", ModeArea.fsu_fsa),
   ("volrat_osm_osa", ModeArea.osm_osa), ("volrat_osu_osa", ModeArea.osu_osa), ("volrat_fsm_asm", ModeArea.fsm_asm),
   ("volrat_osm_asm", ModeArea.osm_asm), ("volrat_osu_asu", ModeArea.osu_asu), ("volrat_fsa_aaa", ModeArea.fsa_aaa),
   ("volrat_osa_aaa", ModeArea.osa_aaa), ("volrat_fsa_faa", ModeArea.fsa_faa), ("volrat_fca_faa", ModeArea.fca_faa),
   ("volrat_osa_oaa", ModeArea.osa_oaa), ("volrat_oca_oaa", ModeArea.oca_oaa), ("volrat_fca_aca", ModeArea.fca_aca),
   ("volrat_oca_aca", ModeArea.oca_aca), ("volrat_fsa_osa", ModeArea.fsa_osa), ("volrat_osa_fsa", ModeArea.osa_fsa),
   ("volrat_aca_asa", ModeArea.aca_asa), ("volrat_asa_aca", ModeArea.asa_aca), ("volrat_fca_fsa", ModeArea.fca_fsa),
   ("volrat_fsa_fca", ModeArea.fsa_fca), ("volrat_oca_osa", ModeArea.oca_osa), ("volrat_osa_oca", ModeArea.osa_oca),
   ("objvhits", ModeArea.objahits), ("objvmisses", ModeArea.objamisses), ("objvfas", ModeArea.objafas),
   ("objvcsi", ModeArea.objacsi), ("objvpody", ModeArea.objapody), ("objvfar", ModeArea.objafar)]

/-- The functions imported by agg_stat_bootstrap.py:45-50, by the name of the statistic.  mode_2d_ratio_statistics.py and
mode_2d_arearat_statistics.py have a function for every one of mode_ratio_statistics.py and mode_arearat_statistics.py. -/
def objectFunctions : List (String × (Frame → Except PyErr (Option ℚ))) :=
  countStats.map (fun p => (p.1, modeCount p.2)) ++ areaStats.map (fun p => (p.1, modeArea p.2)) ++
  areaStats.map (fun p => ("2d_" ++ p.1, modeArea2d p.2)) ++ countStats.map (fun p => ("2d_" ++ p.1, modeCountDim "2d" p.2)) ++
  volumeStats.map (fun p => ("3d_" ++ p.1, modeVolume3d p.2)) ++
  (countStats.filter (fun p => decide (p.1 ∈ count3dNames))).map (fun p => ("3d_" ++ p.1, modeCountDim "3d" p.2))

/-- agg_stat_bootstrap.py:256-271: `globals()[f'calculate_{statistic}']`, a KeyError without the function.
Simplification: the other names of the module are left out; no statistic has the name of one of them. -/
def objectStat (s : String) (f : Frame) : Except PyErr (Option ℚ) :=
  match objectFunctions.lookup s with
  | none => .error .keyError
  | some calculate => calculate f

end Metcalcpy
