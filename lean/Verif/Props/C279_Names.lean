/-
C279  Which value stands below which name.
-/
import Verif.Props.C279_MprColumns

namespace Metcalcpy.Spec

/-- The 24 columns of a matched pair line of MET (its fixed columns): the name, and what stands below it. -/
def matchedPairColumns (model desc fLead fValid oLead oValid fvar funit flev ovar ounit olev mask : String) : List (String × String) :=
  [("VERSION", "V9.1"), ("MODEL", model), ("DESC", desc),
   ("FCST_LEAD", fLead), ("FCST_VALID_BEG", fValid), ("FCST_VALID_END", fValid),
   ("OBS_LEAD", oLead), ("OBS_VALID_BEG", oValid), ("OBS_VALID_END", oValid),
   ("FCST_VAR", fvar), ("FCST_UNITS", funit), ("FCST_LEV", flev),
   ("OBS_VAR", ovar), ("OBS_UNITS", ounit), ("OBS_LEV", olev),
   ("OBTYPE", "ADPUPA"), ("VX_MASK", mask), ("INTERP_MTHD", "NEAREST"), ("INTERP_PNTS", "1"),
   ("FCST_THRESH", "NA"), ("OBS_THRESH", "NA"), ("COV_THRESH", "NA"), ("ALPHA", "NA"), ("LINE_TYPE", "MPR")]

end Metcalcpy.Spec

namespace Metcalcpy.Props
open Metcalcpy Spec

/-- Under the conditions of `C279_aligned_partial`, below the name of each column stands the value that belongs to it
(`matchedPairColumns`), at 24 increasing positions common to the header and the line. -/
theorem C279_named_partial (i : MprInfo) (fLead fValid oLead oValid : String) (q : Point)
    (hd : i.desc.length ≤ max 4 i.mname.length + 1) (h1 : fLead.length ≤ 12) (h2 : fValid.length ≤ 18) (h3 : oLead.length ≤ 12)
    (h4 : oValid.length ≤ 17) :
    ∃ pos : ℕ → ℕ, (∀ j k, j < k → k < 24 → pos j < pos k) ∧
      ∀ k name value, (matchedPairColumns i.mname i.desc fLead fValid oLead oValid i.fvar i.funit i.flev i.ovar i.ounit i.olev
        i.maskname)[k]? = some (name, value) →
        WordAt (mprHeader i) (pos k) name.toList ∧ WordAt (pointLine i fLead fValid oLead oValid q) (pos k) value.toList := by
  obtain ⟨pos, hm, h⟩ := C279_aligned_partial i fLead fValid oLead oValid q hd h1 h2 h3 h4
  refine ⟨pos, hm, ?_⟩
  intro k name value hk
  have hlt : k < 24 := by
    obtain ⟨hk', -⟩ := List.getElem?_eq_some_iff.mp hk
    simpa [matchedPairColumns] using hk'
  obtain ⟨name', value', e1, e2, w1, w2⟩ := h k hlt
  have : name = name' ∧ value = value' := by
    unfold matchedPairColumns at hk
    unfold mprHeaderNames at e1
    unfold pointFields mprFields at e2
    interval_cases k <;> simp at hk e1 e2 <;> obtain ⟨rfl, rfl⟩ := hk <;> exact ⟨e1, e2⟩
  obtain ⟨rfl, rfl⟩ := this
  exact ⟨w1, w2⟩

/-- C279 (example): the hypotheses hold. -/
example := C279_named_partial ⟨"GFS", "A", "IMI", "m", "Z500", "IMI", "m", "Z500", "FULL", "NA"⟩ "120000" "20100101_000000" "000000"
  "20100101_000000" ⟨"1", "1", "40.0000", "10.0000", "1.0000", "2.0000"⟩ (by decide) (by decide) (by decide) (by decide) (by decide)

end Metcalcpy.Props
