/-
metcalcpy/agg_stat.py: preparation of the data before a statistic is calculated in an aggregation run.
-/
import Verif.Model.Table

namespace Metcalcpy

/-- Product of two cells (NaN if either is missing). -/
def mulCell : Cell → Cell → Cell
  | some a, some b => some (a * b)
  | _, _ => none

/-- `data[column] = data[column].values * data[weight].values`; an unknown column is a KeyError. -/
def mulColumn (weight : String) (t : Table) (column : String) : Except PyErr Table :=
  match t.colIdx? column, t.colIdx? weight with
  | some i, some j =>
    .ok { t with rows := t.rows.map (fun r =>
      r.set i (mulCell ((r[i]?).getD none) ((r[j]?).getD none))) }
  | _, _ => .error .keyError

/-- metcalcpy/agg_stat.py:405-475 `_prepare_sl1l2_data`, `_prepare_sal1l2_data`, `_prepare_grad_data`,
`_prepare_vl1l2_data`, `_prepare_val1l2_data`, `_prepare_vcnt_data` (identical bodies): every field of the
statistic is multiplied by the total.  `fields = none` stands for a statistic without an entry in
STATISTIC_TO_FIELDS. -/
def prepareFields (t : Table) (fields : Option (List String)) : Except PyErr Table :=
  match fields with
  | none => .ok t
  | some fs => fs.foldlM (mulColumn "total") t

/-- metcalcpy/agg_stat.py:125-188: the STATISTIC_TO_FIELDS entries of the SL1L2, SAL1L2, GRAD, VCNT, VL1L2 and
VAL1L2 statistics.  There are no entries for vl1l2_fspd and vl1l2_ospd. -/
def statisticFields : List (String × List String) :=
  [("fbar", ["fbar"]), ("obar", ["obar"]), ("fstdev", ["fbar", "ffbar"]), ("ostdev", ["obar", "oobar"]),
   ("fobar", ["fobar"]), ("ffbar", ["ffbar"]), ("oobar", ["oobar"]), ("mae", ["mae"]),
   ("mbias", ["obar", "fbar"]), ("corr", ["ffbar", "fbar", "oobar", "obar", "fobar"]),
   ("anom_corr", ["ffabar", "fabar", "ooabar", "oabar", "foabar"]),
   ("anom_corr_raw", ["ffabar", "ooabar", "foabar"]), ("rmsfa", ["ffabar"]), ("rmsoa", ["ooabar"]),
   ("me", ["fbar", "obar"]), ("me2", ["fbar", "obar"]), ("mse", ["ffbar", "oobar", "fobar"]),
   ("msess", ["ffbar", "oobar", "fobar", "obar"]), ("rmse", ["ffbar", "oobar", "fobar"]),
   ("si", ["ffbar", "oobar", "fobar", "obar"]),
   ("estdev", ["ffbar", "oobar", "fobar", "fbar", "obar"]),
   ("bcmse", ["ffbar", "oobar", "fobar", "fbar", "obar"]),
   ("bcrmse", ["ffbar", "oobar", "fobar", "fbar", "obar"]),
   ("pr_corr", ["ffbar", "oobar", "fobar", "fbar", "obar"]),
   ("fgbar", ["fgbar"]), ("ogbar", ["ogbar"]), ("mgbar", ["mgbar"]), ("egbar", ["egbar"]),
   ("s1", ["egbar", "mgbar"]), ("s1_og", ["egbar", "ogbar"]), ("fgog_ratio", ["fgbar", "ogbar"]),
   ("vcnt_fbar", ["f_speed_bar"]), ("vcnt_obar", ["o_speed_bar"]), ("vcnt_fs_rms", ["uvffbar"]),
   ("vcnt_os_rms", ["uvoobar"]), ("vcnt_msve", ["uvffbar", "uvfobar", "uvoobar"]),
   ("vcnt_rmsve", ["uvffbar", "uvfobar", "uvoobar"]), ("vcnt_fstdev", ["uvffbar", "f_speed_bar"]),
   ("vcnt_ostdev", ["uvoobar", "o_speed_bar"]), ("vcnt_fdir", ["ufbar", "vfbar"]),
   ("vcnt_odir", ["uobar", "vobar"]), ("vcnt_fbar_speed", ["ufbar", "vfbar"]),
   ("vcnt_obar_speed", ["uobar", "vobar"]),
   ("vcnt_vdiff_speed", ["ufbar", "uobar", "vfbar", "vobar"]),
   ("vcnt_vdiff_dir", ["ufbar", "uobar", "vfbar", "vobar"]),
   ("vcnt_speed_err", ["ufbar", "vfbar", "uobar", "vobar"]),
   ("vcnt_speed_abserr", ["ufbar", "vfbar", "uobar", "vobar"]),
   ("vcnt_dir_err", ["ufbar", "vfbar", "uobar", "vobar"]),
   ("vcnt_dir_abser", ["ufbar", "vfbar", "uobar", "vobar"]),
   ("vcnt_anom_corr", ["uvffabar", "uvfoabar", "uvooabar", "fa_speed_bar", "oa_speed_bar"]),
   ("vcnt_anom_corr_uncntr", ["uvffabar", "uvfoabar", "uvooabar"]),
   ("vl1l2_bias", ["uvffbar", "uvoobar"]), ("vl1l2_fvar", ["uvffbar", "f_speed_bar"]),
   ("vl1l2_ovar", ["uvoobar", "o_speed_bar"]),
   ("vl1l2_speed_err", ["ufbar", "vfbar", "uobar", "vobar"]),
   ("vl1l2_rmsve", ["uvffbar", "uvfobar", "uvoobar"]), ("vl1l2_msve", ["uvffbar", "uvfobar", "uvoobar"]),
   ("val1l2_anom_corr", ["ufabar", "vfabar", "uoabar", "voabar", "uvfoabar", "uvffabar", "uvooabar"])]

def fieldsOf (statistic : String) : Option (List String) :=
  (statisticFields.find? (fun p => p.1 == statistic)).map Prod.snd

/-- metcalcpy/agg_stat.py:235-281 `_calc_stats` on one sample after `_prepare_*`: the calculation is
called with `aggregation = True`. -/
def aggregated {α : Type} (statistic : String) (calculate : Table → Bool → α) (t : Table) :
    Except PyErr α := do
  let t' ← prepareFields t (fieldsOf statistic)
  return calculate t' true

end Metcalcpy
