/-
metcalcpy/util/nbrctc_statistics.py: statistics of neighborhood contingency tables.
-/
import Verif.Model.Ctc

namespace Metcalcpy

/-- The functions of nbrctc_statistics.py by the name of the statistic: nbr_baser (24-38), nbr_acc (41-55), nbr_fbias (58-72),
nbr_fmean (75-89), nbr_pody (92-106), nbr_pofd (109-123), nbr_podn (126-140), nbr_far (143-157), nbr_csi (160-174), nbr_gss (177-191),
nbr_hk (194-208), nbr_hss (211-225), nbr_odds (228-242), nbr_ctc_total (245-259); any other name has no function. -/
def nbrCtc (stat : String) (t : Table) : Except PyErr (Option ℚ) :=
  if stat = "nbr_baser" then ctcBaser t
  else if stat = "nbr_acc" then .ok (ctcAcc t)
  else if stat = "nbr_fbias" then .ok (ctcFbias t)
  else if stat = "nbr_fmean" then .ok (ctcFmean t)
  else if stat = "nbr_pody" then .ok (ctcPody t)
  else if stat = "nbr_pofd" then .ok (ctcPofd t)
  else if stat = "nbr_podn" then .ok (ctcPodn t)
  else if stat = "nbr_far" then .ok (ctcFar t)
  else if stat = "nbr_csi" then .ok (ctcCsi t)
  else if stat = "nbr_gss" then .ok (ctcGss t)
  else if stat = "nbr_hk" then .ok (ctcHk t)
  else if stat = "nbr_hss" then .ok (ctcHss t)
  else if stat = "nbr_odds" then .ok (ctcOdds t)
  else if stat = "nbr_ctc_total" then (ctcCount t "total").map some
  else .error .keyError

end Metcalcpy
