/-
C229  What the cleaning before a validation removes.
C230  Nothing is left of a plot that is judged to be the same.
C231  The XML file METviewer is run on.
-/
import Verif.Props.C187_ValidateRun
import Verif.Props.C57_Validate

namespace Metcalcpy

namespace Spec

/-- `p` names an entry of the directory `dir`, written with or without a slash at its end. -/
def EntryOf (dir p : List Char) : Prop :=
  ∃ base name : List Char, name ≠ [] ∧ '/' ∉ name ∧ p = base ++ '/' :: name ∧
    (dir = base ++ ['/'] ∨ (dir = base ∧ ¬ ∃ b, base = b ++ ['/']))

end Spec

namespace Props
open Metcalcpy Spec

variable {I : Type}

theorem getLast_slash (dir : List Char) : dir.getLast? = some '/' ↔ ∃ b, dir = b ++ ['/'] := by
  rw [List.getLast?_eq_some_iff]

theorem inDirectory_iff (dir p : List Char) : inDirectory dir p = true ↔ EntryOf dir p := by
  have hpre : ∃ base, scanPath dir [] = base ++ ['/'] ∧ (dir = base ++ ['/'] ∨ (dir = base ∧ ¬ ∃ b, base = b ++ ['/'])) := by
    unfold scanPath
    by_cases h : dir.getLast? = some '/'
    · rw [if_pos h]
      obtain ⟨b, rfl⟩ := (getLast_slash dir).1 h
      exact ⟨b, by simp, Or.inl rfl⟩
    · rw [if_neg h]
      exact ⟨dir, rfl, Or.inr ⟨rfl, fun hb => h ((getLast_slash dir).2 hb)⟩⟩
  obtain ⟨base, hb, hd⟩ := hpre
  unfold inDirectory
  dsimp only
  rw [hb]
  simp only [Bool.and_eq_true, List.isPrefixOf_iff_prefix, Bool.not_eq_true', bne_iff_ne, ne_eq]
  constructor
  · rintro ⟨⟨⟨name, rfl⟩, h2⟩, h3⟩
    rw [List.drop_left] at h2
    refine ⟨base, name, ?_, ?_, by simp, hd⟩
    · rintro rfl; simp at h3
    · simpa using h2
  · rintro ⟨base', name, hn, hs, rfl, hd'⟩
    have e : base' = base := by
      rcases hd with rfl | ⟨rfl, h⟩ <;> rcases hd' with h' | ⟨h', h''⟩
      · exact (List.append_cancel_right h').symm
      · exact absurd ⟨base, h'.symm⟩ h''
      · exact absurd ⟨base', h'⟩ h
      · exact h'.symm
    subst e
    rw [show base' ++ '/' :: name = (base' ++ ['/']) ++ name by simp]
    refine ⟨⟨List.prefix_append _ _, ?_⟩, ?_⟩
    · rw [List.drop_left]; simpa using hs
    · simpa using hn

open Classical in
/-- C229.  Before any plot is validated exactly the entries of the four output directories are removed, whether or not the names of
the directories end with a slash; all other files, those in their subdirectories too, are as they were. -/
theorem C229_clean (T : ImageTools I) (batch : List Char → Disk I → Disk I) (P : ValidateParams) (d : Disk I) (p : List Char) :
    (validateRun T batch P [] d).1 p =
      if EntryOf P.outputXmlDir p ∨ EntryOf P.outputPlotsDir p ∨ EntryOf P.outputDataDir p ∨ EntryOf P.outputScriptsDir p then none
      else d p := by
  show cleanOutput P d p = _
  unfold cleanOutput Disk.without
  rw [← inDirectory_iff, ← inDirectory_iff, ← inDirectory_iff, ← inDirectory_iff]
  cases inDirectory P.outputXmlDir p <;> cases inDirectory P.outputPlotsDir p <;> cases inDirectory P.outputDataDir p <;>
    cases inDirectory P.outputScriptsDir p <;> simp

/-- The old image of a plot is removed, a file in a subdirectory is not. -/
example : EntryOf "/out/plots/".toList "/out/plots/a_py.png".toList ∧ EntryOf "/out/plots".toList "/out/plots/a_py.png".toList ∧
    ¬ EntryOf "/out/plots/".toList "/out/plots/keep/a.png".toList := by
  refine ⟨(inDirectory_iff _ _).1 (by decide), (inDirectory_iff _ _).1 (by decide), fun h => ?_⟩
  have := (inDirectory_iff _ _).2 h
  exact absurd this (by decide)

/-! ### names -/

theorem takeWhile_all {α : Type} (p : α → Bool) : ∀ (l r : List α), (∀ x ∈ l, p x = true) → (l ++ r).takeWhile p = l ++ r.takeWhile p
  | [], _, _ => rfl
  | a :: l, r, h => by
    rw [List.cons_append, List.takeWhile_cons_of_pos (h a (by simp)), takeWhile_all p l r (fun x hx => h x (by simp [hx])), List.cons_append]

theorem baseName_append (a b : List Char) (h : '/' ∉ b) : baseName (a ++ b) = baseName a ++ b := by
  unfold baseName
  rw [List.reverse_append, takeWhile_all]
  · simp
  · intro x hx
    rw [List.mem_reverse] at hx
    simp only [bne_iff_ne, ne_eq]
    rintro rfl
    exact h hx

theorem baseName_slash (a : List Char) : baseName (a ++ ['/']) = [] := by
  unfold baseName
  simp

theorem nameStem_dot (stem ext : List Char) (h : '.' ∉ stem) : nameStem (stem ++ '.' :: ext) = stem := by
  unfold nameStem
  rw [takeWhile_all]
  · simp
  · intro x hx
    simp only [bne_iff_ne, ne_eq]
    rintro rfl
    exact h hx

theorem replace_one (stem ext post : List Char) (h1 : '.' ∉ stem) (h2 : '.' ∉ ext) :
    replaceNameChars (stem ++ '.' :: ext) post = stem ++ '_' :: post ++ '.' :: ext := by
  have := C57_one_dot_partial stem ext post h1 h2
  unfold replaceName at this
  rw [String.toList_ofList, String.toList_ofList] at this
  have := congrArg String.toList this
  rwa [String.toList_ofList, String.toList_ofList] at this

/-- A file `src/stem.xml` has its new version in the directory for XML files as `stem_py.xml`. -/
theorem newXmlPath_one (P : ValidateParams) (src stem ext : List Char) (h1 : '.' ∉ stem) (h2 : '/' ∉ stem) (h3 : '.' ∉ ext) (h4 : '/' ∉ ext) :
    newXmlPath P (src ++ '/' :: stem ++ '.' :: ext) = P.outputXmlDir ++ (stem ++ "_py.".toList ++ ext) := by
  unfold newXmlPath
  congr 1
  have e : src ++ '/' :: stem ++ '.' :: ext = src ++ ('/' :: (stem ++ '.' :: ext)) := by simp
  rw [e, replace_append]
  have e2 : replaceNameChars ('/' :: (stem ++ '.' :: ext)) "py".toList = '/' :: (stem ++ "_py.".toList ++ ext) := by
    have := replace_one stem ext "py".toList h1 h3
    have e3 : replaceNameChars ('/' :: (stem ++ '.' :: ext)) "py".toList = '/' :: replaceNameChars (stem ++ '.' :: ext) "py".toList := by
      simp [replaceNameChars]
    rw [e3, this]
    simp
  rw [e2, show replaceNameChars src "py".toList ++ '/' :: (stem ++ "_py.".toList ++ ext) =
    (replaceNameChars src "py".toList ++ ['/']) ++ (stem ++ "_py.".toList ++ ext) by simp,
    baseName_append _ _ (by simp [h2, h4]), baseName_slash, List.nil_append]

theorem globStar_stem (dir stem rest : List Char) (h0 : stem ≠ []) (h1 : '/' ∉ stem) (h2 : '/' ∉ rest) :
    globStar (dir ++ stem) (dir ++ stem ++ rest) = true := by
  unfold globStar
  rw [baseName_append _ _ h2, baseName_append _ _ h1, List.drop_left]
  obtain ⟨c, s, rfl⟩ := List.exists_cons_of_ne_nil h0
  have hh : (baseName dir ++ c :: s ++ rest).head? = (baseName dir ++ c :: s).head? := by
    cases baseName dir <;> simp
  rw [hh]
  have : (dir ++ c :: s).isPrefixOf (dir ++ c :: s ++ rest) = true := by
    rw [List.isPrefixOf_iff_prefix]; exact List.prefix_append _ _
  rw [this]
  simp only [Bool.true_and, Bool.and_eq_true, Bool.not_eq_true', Bool.or_eq_true, bne_iff_ne, beq_iff_eq]
  refine ⟨by simpa using h2, ?_⟩
  by_cases h : (baseName dir ++ c :: s).head? = some '.'
  · exact Or.inr h
  · exact Or.inl h

theorem without_none (d : Disk I) (g : List Char → Bool) (p : List Char) (h : d p = none) : d.without g p = none := by
  unfold Disk.without
  split <;> simp [h]

theorem deleteOutputs_none (P : ValidateParams) (d : Disk I) (plot p : List Char) (h : d p = none) : deleteOutputs P d plot p = none :=
  without_none _ _ _ (without_none _ _ _ h)

theorem deleteOutputs_stem (P : ValidateParams) (d : Disk I) (stem ext rest : List Char) (h0 : stem ≠ []) (h1 : '/' ∉ stem) (h2 : '/' ∉ rest)
    (h3 : '.' ∉ stem) :
    deleteOutputs P d (stem ++ '.' :: ext) (P.outputScriptsDir ++ stem ++ rest) = none ∧
    deleteOutputs P d (stem ++ '.' :: ext) (P.outputDataDir ++ stem ++ rest) = none := by
  unfold deleteOutputs deleteSimilar
  rw [nameStem_dot _ _ h3]
  constructor
  · apply without_none
    unfold Disk.without
    rw [if_pos (globStar_stem _ _ _ h0 h1 h2)]
  · unfold Disk.without
    rw [if_pos (globStar_stem _ _ _ h0 h1 h2)]

theorem remove_gone {d d' : Disk I} {q : List Char} (h : d.remove q = (d', .ok ())) : d' q = none ∧ ∀ p, d p = none → d' p = none := by
  unfold Disk.remove at h
  split at h
  · obtain rfl := (Prod.mk.inj h).1
    exact ⟨by simp [Disk.without], fun p hp => without_none _ _ _ hp⟩
  · simp at h

/-- C230.  When a plot is judged to be the same (or missing in both runs), nothing is left of it: neither its XML file nor its image,
nor any file in the directories of scripts and data whose name begins with that of the plot. -/
theorem C230_nothing_left (T : ImageTools I) (batch : List Char → Disk I → Disk I) (P : ValidateParams) (d d' : Disk I) (x : PlotXml)
    (src stem ext pstem pext : List Char) (s1 : '.' ∉ stem) (s2 : '/' ∉ stem) (s3 : '.' ∉ ext) (s4 : '/' ∉ ext)
    (p0 : pstem ≠ []) (p1 : '.' ∉ pstem) (p2 : '/' ∉ pstem) (p3 : '.' ∉ pext) (hx : x.plotFile = pstem ++ '.' :: pext)
    (hd : d (src ++ '/' :: stem ++ '.' :: ext) = some (.xml x)) (v : Verdict) (hv : v = .identical ∨ v = .bothMissing)
    (h : validateFile T batch P (src ++ '/' :: stem ++ '.' :: ext) d = (d', .ok v)) :
    d' (P.outputXmlDir ++ (stem ++ "_py.".toList ++ ext)) = none ∧
    d' (P.outputPlotsDir ++ (pstem ++ "_py.".toList ++ pext)) = none ∧
    ∀ rest, '/' ∉ rest → d' (P.outputScriptsDir ++ pstem ++ rest) = none ∧ d' (P.outputDataDir ++ pstem ++ rest) = none := by
  unfold validateFile at h
  rw [hd] at h
  dsimp only at h
  have hX := newXmlPath_one P src stem ext s1 s2 s3 s4
  have hI : newImagePath P x.plotFile = P.outputPlotsDir ++ (pstem ++ "_py.".toList ++ pext) := by
    unfold newImagePath
    rw [hx, replace_one _ _ _ p1 p3]
    simp
  generalize batch (newXmlPath P (src ++ '/' :: stem ++ '.' :: ext)) _ = e at h
  rw [← hX, ← hI]
  unfold judgePlot at h
  dsimp only at h
  split at h
  · next hmiss =>
    rw [Bool.and_eq_true, Option.isNone_iff_eq_none, Option.isNone_iff_eq_none] at hmiss
    split at h
    · simp at h
    · next e1 _ hr =>
      obtain ⟨g1, g2⟩ := remove_gone hr
      obtain ⟨rfl, -⟩ := Prod.mk.inj h
      refine ⟨deleteOutputs_none _ _ _ _ g1, deleteOutputs_none _ _ _ _ (g2 _ hmiss.2), fun rest hrest => ?_⟩
      rw [hx]
      exact deleteOutputs_stem P e1 pstem pext rest p0 p2 hrest p1
  · split at h
    · obtain ⟨-, hv'⟩ := Prod.mk.inj h
      rcases hv with rfl | rfl <;> simp at hv'
    · simp at h
    · split at h
      · split at h
        · simp at h
        · next e1 _ hr =>
          obtain ⟨g1, g2⟩ := remove_gone hr
          split at h
          · simp at h
          · next e2 _ hr2 =>
            obtain ⟨k1, k2⟩ := remove_gone hr2
            obtain ⟨rfl, -⟩ := Prod.mk.inj h
            refine ⟨deleteOutputs_none _ _ _ _ k1, deleteOutputs_none _ _ _ _ (k2 _ g1), fun rest hrest => ?_⟩
            rw [hx]
            exact deleteOutputs_stem P e2 pstem pext rest p0 p2 hrest p1
      · split at h
        · obtain ⟨-, hv'⟩ := Prod.mk.inj h
          rcases hv with rfl | rfl <;> simp at hv'
        · simp at h
        · obtain ⟨-, hv'⟩ := Prod.mk.inj h
          rcases hv with rfl | rfl <;> simp at hv'

/-- The plot `a` of C189 is judged identical; its files are gone. -/
example : ∃ d', validateFile sizedTools drawFive checkParams ("/in".toList ++ '/' :: "a".toList ++ '.' :: "xml".toList) twoPlots = (d', .ok .identical) ∧
    d' "/out/data/a_py.data".toList = none ∧ d' "/out/plots/a_py.png".toList = none := by
  refine ⟨(validateFile sizedTools drawFive checkParams ("/in".toList ++ '/' :: "a".toList ++ '.' :: "xml".toList) twoPlots).1, ?_, ?_⟩
  · refine Prod.ext rfl ?_
    decide +kernel
  · decide +kernel

/-- C231.  METviewer is run on the XML file `stem_py.xml` in the directory for XML files, at a time when this holds the texts of
the original with the names of plot, data and script marked by `_py`, the templates and the working directory of the METviewer
given, the output directories and the database user given; the rest of the disk is as it was.  What METviewer does elsewhere or
otherwise has no influence. -/
theorem C231_call (T : ImageTools I) (batch : List Char → Disk I → Disk I) (P : ValidateParams) (d : Disk I) (x : PlotXml)
    (src stem ext pstem pext dstem dext rstem rext : List Char) (s1 : '.' ∉ stem) (s2 : '/' ∉ stem) (s3 : '.' ∉ ext) (s4 : '/' ∉ ext)
    (p1 : '.' ∉ pstem) (p2 : '.' ∉ pext) (d1 : '.' ∉ dstem) (d2 : '.' ∉ dext) (r1 : '.' ∉ rstem) (r2 : '.' ∉ rext)
    (hp : x.plotFile = pstem ++ '.' :: pext) (hdf : x.dataFile = dstem ++ '.' :: dext) (hr : x.rFile = rstem ++ '.' :: rext)
    (hd : d (src ++ '/' :: stem ++ '.' :: ext) = some (.xml x)) :
    validateFile T batch P (src ++ '/' :: stem ++ '.' :: ext) d =
      validateFile T (fun _ _ => batch (P.outputXmlDir ++ (stem ++ "_py.".toList ++ ext)) (fun q =>
        if q = P.outputXmlDir ++ (stem ++ "_py.".toList ++ ext) then
          some (.xml ⟨pstem ++ "_py.".toList ++ pext, P.outputPlotsDir, dstem ++ "_py.".toList ++ dext, rstem ++ "_py.".toList ++ rext,
            P.mvHome ++ "R_tmpl".toList, P.mvHome ++ "R_work".toList, P.dbUser, P.dbPass, P.outputDataDir, P.outputScriptsDir, x.rest⟩)
        else d q)) P (src ++ '/' :: stem ++ '.' :: ext) d := by
  have e : ∀ a b : List Char, '.' ∉ a → '.' ∉ b → replaceNameChars (a ++ '.' :: b) "py".toList = a ++ "_py.".toList ++ b := by
    intro a b ha hb
    rw [replace_one _ _ _ ha hb]
    simp
  unfold validateFile
  rw [hd]
  dsimp only
  rw [newXmlPath_one P src stem ext s1 s2 s3 s4]
  congr 2
  unfold Disk.write newXml
  rw [hp, hdf, hr, e _ _ p1 p2, e _ _ d1 d2, e _ _ r1 r2]

/-- The XML file of the plot `a` has the form C231 speaks of. -/
example : (plotXml "a").plotFile = "a".toList ++ '.' :: "png".toList ∧ (plotXml "a").dataFile = "a".toList ++ '.' :: "data".toList ∧
    (plotXml "a").rFile = "a".toList ++ '.' :: "R".toList ∧
    twoPlots ("/in".toList ++ '/' :: "a".toList ++ '.' :: "xml".toList) = some (.xml (plotXml "a")) := by
  decide +kernel

end Props
end Metcalcpy
