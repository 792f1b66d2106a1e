/-
C288  Spectra that are saved can be read back (partial).
C289  Spectra are saved in the directory given (partial).
-/
import Verif.Model.SaveSpectra
import Verif.Model.Spacetime

namespace Metcalcpy.Props
open Metcalcpy

theorem truncInt_whole (z : ℤ) : truncInt (z : ℚ) = z := by
  unfold truncInt
  split <;> simp

/-- C288: spectra are saved exactly when there is a frequency for every row and a wavenumber for every column. -/
theorem C288_saves (nvar nfrq nwave : ℕ) (stc : List (List (List Cell))) (freq wnum : List ℚ) :
    (∃ f, saveSpectra nvar nfrq nwave stc freq wnum = .ok f) ↔ freq.length = nfrq ∧ wnum.length = nwave := by
  unfold saveSpectra
  by_cases h1 : freq.length = nfrq
  · by_cases h2 : wnum.length = nwave
    · simp [h1, h2]
    · simp [h1, h2]
  · simp [h1]

/-- C288 (exact extent): the frequencies and the spectra are read back as they were, number k stands for spectrum k, and the
wavenumbers are read back exactly when they are whole numbers.  The names of the spectra are as many as there are spectra
exactly when these are eight. -/
theorem C288_exactly_partial (nvar nfrq nwave : ℕ) (stc : List (List (List Cell))) (freq wnum : List ℚ) (f : SpectraFile)
    (h : saveSpectra nvar nfrq nwave stc freq wnum = .ok f) :
    f.freq = freq ∧ f.stc = stc ∧ f.var = (List.range nvar).map (fun k : ℕ => (k : ℤ)) ∧
    (f.wnum.map (fun z : ℤ => (z : ℚ)) = wnum ↔ ∀ q ∈ wnum, ∃ z : ℤ, q = z) ∧
    (f.names.length = nvar ↔ nvar = 8) := by
  unfold saveSpectra at h
  split at h
  · simp at h
  · split at h
    · simp at h
    · simp only [Except.ok.injEq] at h
      subst h
      refine ⟨rfl, rfl, ?_, ?_, ?_⟩
      · apply List.map_congr_left
        intro k hk
        have hk' : k < nvar := List.mem_range.mp hk
        by_cases h1 : nvar = 1
        · subst h1
          obtain rfl : k = 0 := by omega
          norm_num [truncInt]
        · have h2 : ((nvar : ℚ) - 1) ≠ 0 := by
            intro e
            apply h1
            have : (nvar : ℚ) = 1 := by linarith
            exact_mod_cast this
          rw [mul_div_assoc, mul_div_cancel₀ _ h2]
          exact_mod_cast truncInt_whole (k : ℤ)
      · dsimp only
        rw [List.map_map]
        constructor
        · intro e q hq
          rw [← e] at hq
          obtain ⟨x, -, rfl⟩ := List.mem_map.mp hq
          exact ⟨truncInt x, rfl⟩
        · intro e
          conv_rhs => rw [← List.map_id wnum]
          apply List.map_congr_left
          intro q hq
          obtain ⟨z, rfl⟩ := e q hq
          simp [truncInt_whole]
      · dsimp only
        simp only [List.length_cons, List.length_nil]
        omega

/-- C288: the wavenumbers of mjo_cross are always read back. -/
theorem C288_mjo_cross (nvar nfrq mlon : ℕ) (stc : List (List (List Cell))) (freq : List ℚ) (hf : freq.length = nfrq) :
    ∃ f, saveSpectra nvar nfrq (mjoWave mlon).length stc freq ((mjoWave mlon).map fun z : ℤ => (z : ℚ)) = .ok f ∧
      f.wnum = mjoWave mlon ∧ f.freq = freq ∧ f.stc = stc := by
  obtain ⟨f, h⟩ := (C288_saves nvar nfrq (mjoWave mlon).length stc freq ((mjoWave mlon).map fun z : ℤ => (z : ℚ))).mpr
    ⟨hf, by simp⟩
  obtain ⟨h1, h2, -, h4, -⟩ := C288_exactly_partial _ _ _ _ _ _ f h
  refine ⟨f, h, ?_, h1, h2⟩
  have e := h4.mpr (by
    intro q hq
    obtain ⟨z, -, rfl⟩ := List.mem_map.mp hq
    exact ⟨z, rfl⟩)
  have inj : Function.Injective (fun z : ℤ => (z : ℚ)) := fun a b hab => by simpa using hab
  exact (List.map_injective_iff.mpr inj) e

/-- C288 (counterexample): wavenumbers in between are cut, so that two columns have the same one; with two spectra the file
still names eight. -/
theorem C288_cut_counterexample :
    saveSpectra 2 1 2 [[[some 1, some 2]], [[some 3, some 4]]] [1 / 2] [1, 3 / 2] =
      .ok ⟨[1 / 2], [1, 1], [0, 1], [[[some 1, some 2]], [[some 3, some 4]]],
        ["PX", "PY", "CXY", "QXY", "COH2", "PHA", "V1", "V2"]⟩ := by decide +kernel

/-- C288 (example): spectra of four longitudes. -/
example := C288_mjo_cross 1 2 4 [[[some 1, some 2, some 3, some 4, some 5], [none, none, none, none, none]]] [0, 1 / 2] rfl

/-- C289: contributed/spacetime writes into the directory, for every directory and every name that is not absolute: the
path is the directory, a slash where it does not end in one, and the name. -/
theorem C289_directory (dir name : List Char) (hn : name.head? ≠ some '/') (hne : name ≠ []) (hd : dir ≠ []) :
    ∃ sep, spectraPath dir name = dir ++ sep ++ name ++ ".nc".toList ∧ (dir ++ sep).getLast? = some '/' ∧
      (sep = [] ∨ sep = ['/']) := by
  obtain ⟨c, cs, rfl⟩ := List.exists_cons_of_ne_nil hne
  have hn' : (c :: cs ++ ".nc".toList).head? ≠ some '/' := by simpa using hn
  unfold spectraPath osJoin
  rw [if_neg hn']
  by_cases h : dir.getLast? = some '/'
  · rw [if_pos (Or.inr h)]
    exact ⟨[], by simp, by simpa using h, Or.inl rfl⟩
  · rw [if_neg (by simp [hd, h])]
    exact ⟨['/'], by simp, by simp, Or.inr rfl⟩

/-- C289 (exact extent): the copy in contributed/tropical_diagnostics writes the same file exactly when the directory is
given with a slash at its end (or is empty). -/
theorem C289_tropical_exactly_partial (dir name : List Char) (hn : name.head? ≠ some '/') (hne : name ≠ []) :
    spectraPathTropical dir name = spectraPath dir name ↔ dir = [] ∨ dir.getLast? = some '/' := by
  obtain ⟨c, cs, rfl⟩ := List.exists_cons_of_ne_nil hne
  have hn' : (c :: cs ++ ".nc".toList).head? ≠ some '/' := by simpa using hn
  unfold spectraPathTropical spectraPath osJoin
  rw [if_neg hn']
  by_cases h : dir = [] ∨ dir.getLast? = some '/'
  · rw [if_pos h]
    simp [h]
  · rw [if_neg h]
    simp only [h, iff_false]
    intro e
    have := congrArg List.length e
    simp at this

/-- C289 (counterexample): with the directory `/out/day1` the copy writes `/out/day1S.nc`. -/
theorem C289_tropical_counterexample :
    spectraPathTropical "/out/day1".toList "S".toList = "/out/day1S.nc".toList ∧
      spectraPath "/out/day1".toList "S".toList = "/out/day1/S.nc".toList := by decide +kernel

/-- C289 (example): a directory with a slash. -/
example : spectraPathTropical "/out/".toList "S".toList = spectraPath "/out/".toList "S".toList :=
  (C289_tropical_exactly_partial _ _ (by decide +kernel) (by decide +kernel)).mpr (Or.inr (by decide +kernel))

/-- C289 (example): one without. -/
example := C289_directory "/out/day1".toList "S".toList (by decide +kernel) (by decide +kernel) (by decide +kernel)

/-- C289: an absolute name is written where it says, not in the directory. -/
theorem C289_absolute_name (dir name : List Char) : spectraPath dir ('/' :: name) = '/' :: name ++ ".nc".toList := by
  simp [spectraPath, osJoin]

example : spectraPath "/out".toList "/tmp/S".toList = "/tmp/S.nc".toList := by decide +kernel

end Metcalcpy.Props
