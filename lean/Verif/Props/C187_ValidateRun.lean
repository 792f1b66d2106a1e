/-
C187  The validation of METviewer plots changes no file outside of its output directories.
C188  Every selected plot is judged, by its two images (false: images of different sizes end the run).
C189  The files of plots that differ are kept (false: those whose names begin with the name of another plot are removed).
-/
import Verif.Model.ValidateRun

namespace Metcalcpy.Props
open Metcalcpy

variable {I : Type}

/-- The path begins with none of the four output directories. -/
@[reducible] def OutsideOutput (P : ValidateParams) (p : List Char) : Prop :=
  ¬P.outputXmlDir <+: p ∧ ¬P.outputPlotsDir <+: p ∧ ¬P.outputDataDir <+: p ∧ ¬P.outputScriptsDir <+: p

/-- METviewer writes only into the output directories. -/
def WritesOutput (P : ValidateParams) (batch : List Char → Disk I → Disk I) : Prop :=
  ∀ f d p, OutsideOutput P p → batch f d p = d p

theorem without_eq (d : Disk I) (g : List Char → Bool) (p : List Char) (h : g p = false) : d.without g p = d p := by
  simp [Disk.without, h]

theorem write_ne (d : Disk I) (q p : List Char) (c : FileContent I) (h : p ≠ q) : d.write q c p = d p := by
  simp [Disk.write, h]

theorem inDirectory_outside (dir p : List Char) (h : ¬dir <+: p) : inDirectory dir p = false := by
  unfold inDirectory
  have : (scanPath dir []).isPrefixOf p = false := by
    by_contra hc
    rw [Bool.not_eq_false, List.isPrefixOf_iff_prefix] at hc
    apply h
    refine List.IsPrefix.trans ?_ hc
    unfold scanPath
    split <;> simp
  simp [this]

theorem globStar_outside (pre p : List Char) (h : ¬pre <+: p) : globStar pre p = false := by
  unfold globStar
  have : pre.isPrefixOf p = false := by
    by_contra hc
    rw [Bool.not_eq_false, List.isPrefixOf_iff_prefix] at hc
    exact h hc
  simp [this]

theorem deleteSimilar_outside (d : Disk I) (dir f p : List Char) (h : ¬dir ++ nameStem f <+: p) : deleteSimilar d dir f p = d p :=
  without_eq _ _ _ (globStar_outside _ _ h)

theorem remove_eq (d : Disk I) (q p : List Char) (h : p ≠ q) : (d.remove q).1 p = d p := by
  unfold Disk.remove
  split
  · exact without_eq d (· == q) p (beq_eq_false_iff_ne.mpr h)
  · rfl

theorem not_prefix_append {a p : List Char} (b : List Char) (h : ¬a <+: p) : ¬a ++ b <+: p :=
  fun hc => h ((List.prefix_append a b).trans hc)

theorem ne_of_not_prefix {a p : List Char} (b : List Char) (h : ¬a <+: p) : p ≠ a ++ b :=
  fun hc => h (hc ▸ List.prefix_append a b)

/-- What the judgement of a plot leaves alone. -/
theorem judgePlot_frame (T : ImageTools I) (P : ValidateParams) (f : List Char) (x : PlotXml) (d : Disk I) (p : List Char)
    (h1 : ¬P.outputXmlDir <+: p) (h2 : ¬P.outputPlotsDir <+: p) (h3 : ¬P.outputScriptsDir ++ nameStem x.plotFile <+: p)
    (h4 : ¬P.outputDataDir ++ nameStem x.plotFile <+: p) : (judgePlot T P f x d).1 p = d p := by
  have hx : p ≠ newXmlPath P f := ne_of_not_prefix _ h1
  have hi : p ≠ newImagePath P x.plotFile := ne_of_not_prefix _ h2
  have hd : ∀ d : Disk I, deleteOutputs P d x.plotFile p = d p := fun d =>
    (deleteSimilar_outside _ _ _ _ h4).trans (deleteSimilar_outside _ _ _ _ h3)
  unfold judgePlot
  dsimp only
  split
  · have e := remove_eq d (newXmlPath P f) p hx
    split
    · next heq => rw [heq] at e; exact e
    · next heq => rw [heq] at e; rw [← e]; exact hd _
  · split
    · rfl
    · rfl
    · split
      · have e := remove_eq d (newImagePath P x.plotFile) p hi
        split
        · next heq => rw [heq] at e; exact e
        · next d' _ heq =>
          rw [heq] at e
          have e' := remove_eq d' (newXmlPath P f) p hx
          split
          · next heq' => rw [heq'] at e'; exact e'.trans e
          · next heq' => rw [heq'] at e'; exact (hd _).trans (e'.trans e)
      · split
        · rfl
        · rfl
        · exact write_ne _ _ _ _ (ne_of_not_prefix _ h2)

theorem validateFile_outside (T : ImageTools I) (batch : List Char → Disk I → Disk I) (P : ValidateParams) (hb : WritesOutput P batch)
    (f : List Char) (d : Disk I) (p : List Char) (hp : OutsideOutput P p) : (validateFile T batch P f d).1 p = d p := by
  obtain ⟨h1, h2, h3, h4⟩ := hp
  unfold validateFile
  split
  · rfl
  · rw [judgePlot_frame T P f _ _ p h1 h2 (not_prefix_append _ h4) (not_prefix_append _ h3), hb _ _ _ ⟨h1, h2, h3, h4⟩]
    exact write_ne _ _ _ _ (ne_of_not_prefix _ h1)
  · rfl

theorem validateFiles_outside (T : ImageTools I) (batch : List Char → Disk I → Disk I) (P : ValidateParams) (hb : WritesOutput P batch)
    (p : List Char) (hp : OutsideOutput P p) : ∀ (fs : List (List Char)) (d : Disk I), (validateFiles T batch P fs d).1 p = d p
  | [], _ => rfl
  | f :: fs, d => by
    have e := validateFile_outside T batch P hb f d p hp
    unfold validateFiles
    split
    · next heq => rw [heq] at e; exact e
    · next heq => rw [heq] at e; exact (validateFiles_outside T batch P hb p hp fs _).trans e

/-- C187: whatever happens in a run, a file whose path begins with none of the output directories is as it was. -/
theorem C187_outside (T : ImageTools I) (batch : List Char → Disk I → Disk I) (P : ValidateParams) (hb : WritesOutput P batch)
    (tests : List (List Char)) (d : Disk I) (p : List Char) (hp : OutsideOutput P p) : (validateRun T batch P tests d).1 p = d p := by
  unfold validateRun
  rw [validateFiles_outside T batch P hb p hp]
  obtain ⟨h1, h2, h3, h4⟩ := hp
  unfold cleanOutput
  rw [without_eq _ _ _ (inDirectory_outside _ _ h4), without_eq _ _ _ (inDirectory_outside _ _ h3),
    without_eq _ _ _ (inDirectory_outside _ _ h2), without_eq _ _ _ (inDirectory_outside _ _ h1)]

/-! ### C188 -/

open Classical in
/-- The verdict for the original image `o` and the new one `n`. -/
noncomputable def verdictOf (T : ImageTools I) (o n : Option (FileContent I)) : Verdict :=
  if o = none ∧ n = none then .bothMissing
  else if ∃ a b, o = some (.image a) ∧ n = some (.image b) ∧ ∃ g, T.similarity a b = .ok (1, g) then .identical
  else if ∃ a b, o = some (.image a) ∧ n = some (.image b) then .different
  else .unreadable

/-- METviewer: the XML file stays, and the image depends on the XML file only (`made`). -/
structure Plots (P : ValidateParams) (batch : List Char → Disk I → Disk I) (made : PlotXml → Option (FileContent I)) : Prop where
  output : WritesOutput P batch
  xml : ∀ f d, P.outputXmlDir <+: f → batch f d f = d f
  image : ∀ f d x, d f = some (.xml (newXml P x)) → batch f d (newImagePath P x.plotFile) = made x

theorem diskTools_image (T : ImageTools I) (d : Disk I) (p : List Char) :
    (diskTools T d).read (String.ofList p) = match d p with | some (.image i) => some i | _ => none := by
  simp only [diskTools, String.toList_ofList]
  rfl

theorem validateFile_verdict (T : ImageTools I) (hT : ∀ a b, ∃ r, T.similarity a b = .ok r) (batch : List Char → Disk I → Disk I)
    (P : ValidateParams) (made : PlotXml → Option (FileContent I)) (hb : Plots P batch made) (f : List Char) (x : PlotXml) (d : Disk I)
    (hf : d f = some (.xml x)) (ho : OutsideOutput P (x.plots ++ '/' :: x.plotFile)) :
    (validateFile T batch P f d).2 = .ok (verdictOf T (d (x.plots ++ '/' :: x.plotFile)) (made x)) := by
  unfold validateFile
  rw [hf]
  dsimp only
  set d0 := d.write (newXmlPath P f) (.xml (newXml P x)) with hd0
  set d1 := batch (newXmlPath P f) d0 with hd1
  have w0 : d0 (newXmlPath P f) = some (.xml (newXml P x)) := by simp [hd0, Disk.write]
  have e1 : d1 (x.plots ++ '/' :: x.plotFile) = d (x.plots ++ '/' :: x.plotFile) := by
    rw [hd1, hb.output _ _ _ ho]
    exact write_ne _ _ _ _ (ne_of_not_prefix _ ho.1)
  have e2 : d1 (newImagePath P x.plotFile) = made x := hb.image _ _ _ w0
  have e3 : d1 (newXmlPath P f) = some (.xml (newXml P x)) := by rw [hd1, hb.xml (newXmlPath P f) d0 (List.prefix_append _ _), w0]
  unfold judgePlot
  dsimp only
  rw [e1, e2]
  generalize ho' : d (x.plots ++ '/' :: x.plotFile) = o at *
  generalize hn' : made x = n at *
  by_cases hnone : o = none ∧ n = none
  · obtain ⟨rfl, rfl⟩ := hnone
    simp [verdictOf, Disk.remove, e3]
  · have hcond : (o.isNone && n.isNone) = false := by
      cases o <;> cases n <;> simp_all
    rw [hcond]
    simp only [Bool.false_eq_true, if_false]
    unfold Comparison.init
    rw [diskTools_image, diskTools_image, e1, e2]
    unfold verdictOf
    rw [if_neg hnone]
    rcases o with _ | (_ | a | _) <;> rcases n with _ | (_ | b | _) <;> try simp
    obtain ⟨⟨m, g⟩, hs⟩ := hT a b
    have hs' : (diskTools T d1).similarity a b = .ok (m, g) := hs
    simp only [hs', bind, Except.bind, pure, Except.pure, Functor.map, Except.map]
    by_cases hm : m = 1
    · subst hm
      have hne : newXmlPath P f ≠ newImagePath P x.plotFile := by
        intro hc
        rw [hc, e2] at e3
        cases e3
      rw [if_pos rfl, if_pos ⟨a, b, rfl, rfl, g, hs⟩]
      simp [Disk.remove, e2, e3, Disk.without, hne]
    · have : ¬∃ a' b', (some (FileContent.image a) : Option (FileContent I)) = some (.image a') ∧
          (some (FileContent.image b) : Option (FileContent I)) = some (.image b') ∧ ∃ g', T.similarity a' b' = .ok (1, g') := by
        rintro ⟨a', b', ha, hb', g', h⟩
        cases ha; cases hb'
        rw [hs] at h
        exact hm (Prod.mk.inj (Except.ok.inj h)).1
      rw [if_neg hm, if_neg this]
      rfl

/-- C188 (what holds): when the similarity of all images can be computed, every selected file is judged, in order, and the verdict is
that of the original image and the new one: both missing, identical (similarity 1), different, or one of them not readable. -/
theorem C188_verdicts_partial (T : ImageTools I) (hT : ∀ a b, ∃ r, T.similarity a b = .ok r) (batch : List Char → Disk I → Disk I)
    (P : ValidateParams) (made : PlotXml → Option (FileContent I)) (hb : Plots P batch made) (tests : List (List Char × PlotXml))
    (d : Disk I) (hd : ∀ t ∈ tests, d t.1 = some (.xml t.2) ∧ OutsideOutput P t.1 ∧
      OutsideOutput P (t.2.plots ++ '/' :: t.2.plotFile)) :
    (validateRun T batch P (tests.map Prod.fst) d).2 =
      (tests.map fun t => verdictOf T (d (t.2.plots ++ '/' :: t.2.plotFile)) (made t.2), none) := by
  have key : ∀ (tests : List (List Char × PlotXml)) (d' : Disk I), (∀ p, OutsideOutput P p → d' p = d p) →
      (∀ t ∈ tests, d t.1 = some (.xml t.2) ∧ OutsideOutput P t.1 ∧ OutsideOutput P (t.2.plots ++ '/' :: t.2.plotFile)) →
      (validateFiles T batch P (tests.map Prod.fst) d').2 =
      (tests.map fun t => verdictOf T (d (t.2.plots ++ '/' :: t.2.plotFile)) (made t.2), none) := by
    intro tests
    induction tests with
    | nil => intro d' _ _; rfl
    | cons t ts ih =>
      intro d' hd' hts
      obtain ⟨h1, h2, h3⟩ := hts t (by simp)
      have e := validateFile_verdict T hT batch P made hb t.1 t.2 d' ((hd' _ h2).trans h1) h3
      have o := fun p hp => (validateFile_outside T batch P hb.output t.1 d' p hp).trans (hd' p hp)
      rw [hd' _ h3] at e
      rw [List.map_cons, validateFiles]
      generalize validateFile T batch P t.1 d' = r at e o
      obtain ⟨d2, v⟩ := r
      dsimp only at e o
      rw [e]
      simp only [List.map_cons]
      rw [ih d2 o (fun t ht => hts t (List.mem_cons_of_mem _ ht))]
  refine key tests _ ?_ hd
  intro p hp
  obtain ⟨h1, h2, h3, h4⟩ := hp
  unfold cleanOutput
  rw [without_eq _ _ _ (inDirectory_outside _ _ h4), without_eq _ _ _ (inDirectory_outside _ _ h3),
    without_eq _ _ _ (inDirectory_outside _ _ h2), without_eq _ _ _ (inDirectory_outside _ _ h1)]

/-! ### C189 -/

/-- C189 (what holds): a file that begins neither with the XML nor with the plots directory is kept by the validation of further plots if
METviewer leaves it alone and its path does not begin with the scripts or data directory and the stem of one of these plots. -/
theorem C189_kept_partial (T : ImageTools I) (batch : List Char → Disk I → Disk I) (P : ValidateParams) (hw : WritesOutput P batch)
    (p : List Char) (h1 : ¬P.outputXmlDir <+: p) (h2 : ¬P.outputPlotsDir <+: p) (hb : ∀ f d, batch f d p = d p) :
    ∀ (tests : List (List Char × PlotXml)) (d : Disk I),
      (∀ t ∈ tests, d t.1 = some (.xml t.2) ∧ OutsideOutput P t.1 ∧
        ¬P.outputScriptsDir ++ nameStem t.2.plotFile <+: p ∧ ¬P.outputDataDir ++ nameStem t.2.plotFile <+: p) →
      (validateFiles T batch P (tests.map Prod.fst) d).1 p = d p := by
  intro tests
  induction tests with
  | nil => intro d _; rfl
  | cons t ts ih =>
    intro d hts
    obtain ⟨e1, e2, e3, e4⟩ := hts t (by simp)
    have o := fun q hq => validateFile_outside T batch P hw t.1 d q hq
    have e : (validateFile T batch P t.1 d).1 p = d p := by
      unfold validateFile
      rw [e1]
      dsimp only
      rw [judgePlot_frame T P t.1 t.2 _ p h1 h2 e3 e4, hb]
      exact write_ne _ _ _ _ (ne_of_not_prefix _ h1)
    rw [List.map_cons, validateFiles]
    have ih' := ih (validateFile T batch P t.1 d).1 (fun u hu => by
      obtain ⟨a1, a2, a3⟩ := hts u (List.mem_cons_of_mem _ hu)
      exact ⟨(o _ a2).trans a1, a2, a3⟩)
    split
    · next heq => rw [heq] at e; exact e
    · next heq => rw [heq] at e ih'; exact ih'.trans e

/-! ### Examples and failures -/

/-- Output directories, all with a slash at the end. -/
def checkParams : ValidateParams where
  mvHome := "/mv/".toList
  outputXmlDir := "/out/xml/".toList
  outputPlotsDir := "/out/plots/".toList
  outputDataDir := "/out/data/".toList
  outputScriptsDir := "/out/scripts/".toList
  dbUser := "u".toList
  dbPass := "p".toList

/-- The XML file of a plot. -/
def plotXml (name : String) : PlotXml where
  plotFile := (name ++ ".png").toList
  plots := "/old/plots".toList
  dataFile := (name ++ ".data").toList
  rFile := (name ++ ".R").toList
  rTmpl := []
  rWork := []
  user := []
  password := []
  data := "/old/data".toList
  scripts := "/old/scripts".toList
  rest := []

/-- Images are pairs of size and content; those of different sizes cannot be compared. -/
def sizedTools : ImageTools (ℕ × ℕ) where
  read := fun _ => none
  similarity := fun a b => if a.1 = b.1 then .ok (if a.2 = b.2 then 1 else 1 / 2, (a.1, 100)) else .error .valueError
  threshold := fun a => (a.1, a.2 + 1)
  boxes := fun _ a => a

/-- METviewer draws an image of size 8 and content 5 for every plot and writes a data file and a script. -/
def drawFive (f : List Char) (d : Disk (ℕ × ℕ)) : Disk (ℕ × ℕ) :=
  match d f with
  | some (.xml x) => ((d.write ("/out/data/".toList ++ x.dataFile) (.other [])).write ("/out/scripts/".toList ++ x.rFile) (.other [])).write
      ("/out/plots/".toList ++ x.plotFile) (.image (8, 5))
  | _ => d

/-- Two plots; the original image of `a-b` differs from the new one, that of `a` does not. -/
def twoPlots : Disk (ℕ × ℕ) := fun p =>
  if p = "/in/a-b.xml".toList then some (.xml (plotXml "a-b"))
  else if p = "/in/a.xml".toList then some (.xml (plotXml "a"))
  else if p = "/old/plots/a-b.png".toList then some (.image (8, 4))
  else if p = "/old/plots/a.png".toList then some (.image (8, 5))
  else none

/-- The same plots; the original image of `a-b` has another size. -/
def resizedPlots : Disk (ℕ × ℕ) := fun p =>
  if p = "/old/plots/a-b.png".toList then some (.image (9, 5)) else twoPlots p

/-- The files of a run in the order of get_test_xml. -/
def twoTests : List (List Char) := ["/in/a-b.xml".toList, "/in/a.xml".toList]

/-- C189, failure: the plot `a-b` differs, its data and script are made and kept at first; the plot `a` is identical, and with its
files those of `a-b` are removed. -/
theorem C189_stem_counterexample :
    (validateRun sizedTools drawFive checkParams twoTests twoPlots).2 = ([.different, .identical], none) ∧
    (validateRun sizedTools drawFive checkParams (twoTests.take 1) twoPlots).1 "/out/data/a-b_py.data".toList = some (.other []) ∧
    (validateRun sizedTools drawFive checkParams twoTests twoPlots).1 "/out/data/a-b_py.data".toList = none ∧
    (validateRun sizedTools drawFive checkParams twoTests twoPlots).1 "/out/scripts/a-b_py.R".toList = none ∧
    (validateRun sizedTools drawFive checkParams twoTests twoPlots).1 "/out/plots/a-b_thresh.png".toList = some (.image (8, 101)) := by
  decide +kernel

/-- C188, failure: images of different sizes end the run; the plots behind are not looked at. -/
theorem C188_sizes_counterexample :
    (validateRun sizedTools drawFive checkParams twoTests resizedPlots).2 = ([], some (.python .valueError)) := by
  decide +kernel

/-- METviewer as assumed in C187, C188 and C189. -/
theorem drawFive_plots : Plots checkParams drawFive (fun _ => some (.image (8, 5))) where
  output := by
    intro f d p hp
    rw [drawFive.eq_def]
    cases hf : d f with
    | none => rfl
    | some c =>
      cases c with
      | image i => rfl
      | other t => rfl
      | xml x =>
        dsimp only
        obtain ⟨-, h2, h3, h4⟩ := hp
        exact (write_ne _ _ _ _ (ne_of_not_prefix _ h2)).trans ((write_ne _ _ _ _ (ne_of_not_prefix _ h4)).trans
          (write_ne _ _ _ _ (ne_of_not_prefix _ h3)))
  xml := by
    rintro f d ⟨t, rfl⟩
    rw [drawFive.eq_def]
    cases hf : d (checkParams.outputXmlDir ++ t) with
    | none => simp [hf]
    | some c =>
      cases c with
      | image i => simp [hf]
      | other t => simp [hf]
      | xml x =>
        dsimp only
        rw [write_ne, write_ne, write_ne, hf] <;> simp [checkParams]
  image := by
    intro f d x h
    unfold drawFive
    rw [h]
    simp [Disk.write, newImagePath, newXml, checkParams]

/-- Images that can all be compared. -/
def plainTools : ImageTools (ℕ × ℕ) := { sizedTools with similarity := fun a b => .ok (if a = b then 1 else 1 / 2, (a.1, 100)) }

/-- The hypotheses of C188 for the two plots; the verdicts are `different` and `identical`. -/
example : (validateRun plainTools drawFive checkParams twoTests twoPlots).2 =
    ([("/in/a-b.xml".toList, plotXml "a-b"), ("/in/a.xml".toList, plotXml "a")].map fun t =>
      verdictOf plainTools (twoPlots (t.2.plots ++ '/' :: t.2.plotFile)) (some (.image (8, 5))), none) ∧
    (validateRun plainTools drawFive checkParams twoTests twoPlots).2 = ([.different, .identical], none) := by
  refine ⟨C188_verdicts_partial plainTools (fun a b => ⟨_, rfl⟩) drawFive checkParams _ drawFive_plots
    [("/in/a-b.xml".toList, plotXml "a-b"), ("/in/a.xml".toList, plotXml "a")] twoPlots ?_, by decide +kernel⟩
  intro t ht
  simp only [List.mem_cons, List.not_mem_nil, or_false] at ht
  rcases ht with rfl | rfl <;> decide +kernel

/-- The plots are outside of the output directories, and METviewer writes only into these. -/
example : OutsideOutput checkParams "/old/plots/a.png".toList ∧ OutsideOutput checkParams "/in/a.xml".toList ∧
    (validateRun sizedTools drawFive checkParams twoTests twoPlots).1 "/old/plots/a.png".toList = some (.image (8, 5)) := by
  decide +kernel

end Metcalcpy.Props
