/-
C282  Fields and times of read_nc_met belong to the day of their file.
C283  A point masked in a file is missing in the array.
-/
import Verif.Model.NcMasked
import Mathlib.Data.List.ReduceOption

namespace Metcalcpy
namespace Props
open Metcalcpy

theorem mapM_ok_get {α β : Type} (g : α → Except PyErr β) : ∀ (l : List α) (r : List β), l.mapM g = .ok r →
    r.length = l.length ∧ ∀ (k : ℕ) (x : α), l[k]? = some x → ∃ y, g x = .ok y ∧ r[k]? = some y
  | [], r, h => by
    cases h
    simp
  | a :: l, r, h => by
    rw [List.mapM_cons] at h
    cases ha : g a with
    | error e => rw [ha] at h; cases h
    | ok y =>
      cases hl : l.mapM g with
      | error e => rw [ha, hl] at h; cases h
      | ok ys =>
        rw [ha, hl] at h
        cases h
        obtain ⟨h1, h2⟩ := mapM_ok_get g l ys hl
        refine ⟨by simp [h1], ?_⟩
        intro k x hk
        cases k with
        | zero =>
          simp only [List.getElem?_cons_zero, Option.some.injEq] at hk
          subst hk
          exact ⟨y, ha, rfl⟩
        | succ k => simpa using h2 k x (by simpa using hk)

theorem block_get {β : Type} (r : List β) (ns ds : ℕ) (s d : ℕ) (hs : s < ns) (hd : d < ds) :
    (((List.range ns).map fun s => (r.drop (s * ds)).take ds)[s]?.bind (·[d]?)) = r[s * ds + d]? := by
  rw [List.getElem?_map, List.getElem?_range hs]
  simp only [Option.map_some, Option.bind_some]
  rw [List.getElem?_take_of_lt hd, List.getElem?_drop]

/-- C282: whenever read_nc_met returns, the field and the times at season `s` and day `d` are those of file number `s` times the days of a
season plus `d`; a file given as `missing` has a field of NaN, on the grid of the first file that is there, and empty texts. -/
theorem C282_place (files : List (Option MaskedFile)) (ns ds : ℕ) (z : Seasons) (t : List (List (String × String × String)))
    (h : readNcMetTimes files ns ds = .ok (z, t)) :
    files.length = ns * ds ∧ z.days.length = ns ∧ t.length = ns ∧
    ∀ s d, s < ns → d < ds →
      (∀ f, files[s * ds + d]? = some (some f) →
        (z.days[s]?.bind (·[d]?)) = some (f.field.map fun r => r.map fun c => c.getD f.fill) ∧
        ∃ secs, f.lead = .ok secs ∧ (t[s]?.bind (·[d]?)) = some (f.init, f.valid, leadLabel secs)) ∧
      (files[s * ds + d]? = some none →
        (z.days[s]?.bind (·[d]?)) = some (List.replicate z.lats.length (List.replicate z.lons.length none)) ∧
        (t[s]?.bind (·[d]?)) = some ("", "", "")) := by
  unfold readNcMetTimes at h
  simp only [bind, Except.bind, pure, Except.pure] at h
  cases hz : readNcMet (files.map (Option.map MaskedFile.stored)) ns ds with
  | error e => rw [hz] at h; cases h
  | ok z' =>
    rw [hz] at h
    dsimp only at h
    cases ht : files.mapM metTimes with
    | error e => rw [ht] at h; cases h
    | ok times =>
      rw [ht] at h
      injection h with h
      injection h with h1 h2
      subst h1 h2
      unfold readNcMet at hz
      cases hr : (files.map (Option.map MaskedFile.stored)).reduceOption with
      | nil => rw [hr] at hz; cases hz
      | cons g rest =>
        rw [hr] at hz
        simp only [bind, Except.bind, pure, Except.pure] at hz
        cases hm : (files.map (Option.map MaskedFile.stored)).mapM (fileField g.lats.length g.lons.length) with
        | error e => rw [hm] at hz; cases hz
        | ok fields =>
          rw [hm] at hz
          dsimp only at hz
          split at hz
          · next hn =>
            injection hz with hz
            subst hz
            rw [List.length_map] at hn
            obtain ⟨-, hF⟩ := mapM_ok_get _ _ _ hm
            obtain ⟨-, hT⟩ := mapM_ok_get _ _ _ ht
            refine ⟨hn, by simp, by simp, fun s d hs hd => ⟨fun f hf => ?_, fun hf => ?_⟩⟩
            · obtain ⟨y, hy, hy2⟩ := hF (s * ds + d) (some f.stored) (by rw [List.getElem?_map, hf]; rfl)
              obtain ⟨w, hw, hw2⟩ := hT (s * ds + d) (some f) hf
              rw [block_get _ _ _ _ _ hs hd, block_get _ _ _ _ _ hs hd, hy2, hw2]
              unfold fileField at hy
              dsimp only at hy
              split at hy
              · injection hy with hy
                refine ⟨by rw [← hy]; rfl, ?_⟩
                unfold metTimes at hw
                dsimp only at hw
                cases hl : f.lead with
                | error e => rw [hl] at hw; cases hw
                | ok secs =>
                  rw [hl] at hw
                  injection hw with hw
                  exact ⟨secs, rfl, by rw [hw]⟩
              · cases hy
            · obtain ⟨y, hy, hy2⟩ := hF (s * ds + d) none (by rw [List.getElem?_map, hf]; rfl)
              obtain ⟨w, hw, hw2⟩ := hT (s * ds + d) none hf
              rw [block_get _ _ _ _ _ hs hd, block_get _ _ _ _ _ hs hd, hy2, hw2]
              injection hy with hy
              injection hw with hw
              exact ⟨by rw [← hy], by rw [← hw]⟩
          · cases hz

/-- The value of an array of read_nc_met at a season, day, row and column. -/
def seasonsAt (z : Seasons) (s d i j : ℕ) : Option Cell := ((((z.days[s]?).bind (·[d]?)).bind (·[i]?)).bind (·[j]?))

/-- C283, extent: a masked point of a file holds the fill value of the file in the array; it is missing exactly when that is NaN.  Every
other point holds its value. -/
theorem C283_exactly_partial (files : List (Option MaskedFile)) (ns ds : ℕ) (z : Seasons) (t : List (List (String × String × String)))
    (h : readNcMetTimes files ns ds = .ok (z, t)) (s d i j : ℕ) (hs : s < ns) (hd : d < ds) (f : MaskedFile)
    (hf : files[s * ds + d]? = some (some f)) (c : Option Cell) (hc : ((f.field[i]?).bind (·[j]?)) = some c) :
    (∀ v, c = some v → seasonsAt z s d i j = some v) ∧
    (c = none → seasonsAt z s d i j = some f.fill ∧ (seasonsAt z s d i j = some none ↔ f.fill = none)) := by
  have key : seasonsAt z s d i j = some (c.getD f.fill) := by
    unfold seasonsAt
    rw [(((C282_place files ns ds z t h).2.2.2 s d hs hd).1 f hf).1]
    simp only [Option.bind_some, List.getElem?_map]
    cases hr : f.field[i]? with
    | none => rw [hr] at hc; cases hc
    | some r =>
      rw [hr] at hc
      simp only [Option.bind_some] at hc
      simp only [Option.map_some, Option.bind_some, List.getElem?_map, hc]
  refine ⟨?_, ?_⟩
  · rintro v rfl
    exact key
  · rintro rfl
    rw [key]
    simp

/-- A file of one latitude and two longitudes, the second point masked. -/
def maskedExample : MaskedFile := ⟨[45], [0, 1], some (-9999), [[some (some 5400), none]], "20200101_000000", "20200101_120000", .ok 43200⟩

/-- Two seasons of two days, the third file missing. -/
theorem maskedExample_read : readNcMetTimes [some maskedExample, some maskedExample, none, some maskedExample] 2 2 =
    .ok (⟨[[[[some 5400, some (-9999)]], [[some 5400, some (-9999)]]], [[[none, none]], [[some 5400, some (-9999)]]]], [45], [0, 1]⟩,
      [[("20200101_000000", "20200101_120000", "120000"), ("20200101_000000", "20200101_120000", "120000")],
       [("", "", ""), ("20200101_000000", "20200101_120000", "120000")]]) := by
  rfl

/-- C283 is false: the masked point is -9999 in the array. -/
theorem C283_masked_counterexample : ∃ files z t f, readNcMetTimes files 2 2 = .ok (z, t) ∧ files[0]? = some (some f) ∧
    ((f.field[0]?).bind (·[1]?)) = some none ∧ seasonsAt z 0 0 0 1 = some (some (-9999)) :=
  ⟨_, _, _, maskedExample, maskedExample_read, rfl, rfl, rfl⟩

/-- C282 on this example: the last file is the second day of the second season. -/
example := ((C282_place _ _ _ _ _ maskedExample_read).2.2.2 1 1 (by decide) (by decide)).1 maskedExample rfl

theorem mapM_ok_iff {α β : Type} (g : α → Except PyErr β) : ∀ l : List α, (∃ r, l.mapM g = .ok r) ↔ ∀ x ∈ l, ∃ y, g x = .ok y
  | [] => by simp [pure, Except.pure]
  | a :: l => by
    rw [List.mapM_cons]
    simp only [List.mem_cons, forall_eq_or_imp]
    rw [← mapM_ok_iff g l]
    cases ha : g a with
    | error e => simp [bind, Except.bind]
    | ok y =>
      cases hl : l.mapM g with
      | error e => simp [bind, Except.bind]
      | ok ys => simp [bind, Except.bind, pure, Except.pure]

/-- C282, when read_nc_met returns: all files that are there lie on the grid of the first of them and have times that can be read, and there
are as many files as days of all seasons. -/
theorem C282_returns (files : List (Option MaskedFile)) (ns ds : ℕ) (g : MaskedFile) (hg : files.reduceOption.head? = some g) :
    (∃ r, readNcMetTimes files ns ds = .ok r) ↔
      files.length = ns * ds ∧ ∀ f, some f ∈ files → f.field.length = g.lats.length ∧ (∀ r ∈ f.field, r.length = g.lons.length) ∧
        ∃ secs, f.lead = .ok secs := by
  obtain ⟨rest, hr⟩ : ∃ rest, (files.map (Option.map MaskedFile.stored)).reduceOption = g.stored :: rest := by
    rw [List.reduceOption_map]
    cases hc : files.reduceOption with
    | nil => rw [hc] at hg; cases hg
    | cons a l =>
      rw [hc] at hg
      simp only [List.head?_cons, Option.some.injEq] at hg
      subst hg
      exact ⟨_, rfl⟩
  have hF : (∃ r, (files.map (Option.map MaskedFile.stored)).mapM (fileField g.stored.lats.length g.stored.lons.length) = .ok r) ↔
      ∀ f, some f ∈ files → f.field.length = g.lats.length ∧ ∀ r ∈ f.field, r.length = g.lons.length := by
    rw [mapM_ok_iff]
    constructor
    · intro h f hf
      obtain ⟨y, hy⟩ := h (some f.stored) (List.mem_map.2 ⟨some f, hf, rfl⟩)
      unfold fileField at hy
      dsimp only at hy
      split at hy
      · next hc =>
        refine ⟨by simpa [MaskedFile.stored] using hc.1, fun r hm => ?_⟩
        simpa [MaskedFile.stored] using hc.2 (r.map fun c => c.getD f.fill) (List.mem_map.2 ⟨r, hm, rfl⟩)
      · cases hy
    · intro h x hx
      obtain ⟨q, hq, rfl⟩ := List.mem_map.1 hx
      cases q with
      | none => exact ⟨_, rfl⟩
      | some f =>
        obtain ⟨h1, h2⟩ := h f hq
        refine ⟨f.stored.field, ?_⟩
        unfold fileField
        simp only [Option.map_some]
        rw [if_pos]
        refine ⟨by simpa [MaskedFile.stored] using h1, ?_⟩
        intro r hm
        obtain ⟨r', hr', rfl⟩ := List.mem_map.1 hm
        simpa [MaskedFile.stored] using h2 r' hr'
  have hT : (∃ r, files.mapM metTimes = .ok r) ↔ ∀ f, some f ∈ files → ∃ secs, f.lead = .ok secs := by
    rw [mapM_ok_iff]
    constructor
    · intro h f hf
      obtain ⟨y, hy⟩ := h (some f) hf
      unfold metTimes at hy
      dsimp only at hy
      cases hl : f.lead with
      | error e => rw [hl] at hy; cases hy
      | ok secs => exact ⟨secs, rfl⟩
    · intro h x hx
      cases x with
      | none => exact ⟨_, rfl⟩
      | some f =>
        obtain ⟨secs, hs⟩ := h f hx
        exact ⟨_, by unfold metTimes; dsimp only; rw [hs]⟩
  have hsplit : (files.length = ns * ds ∧ ∀ f, some f ∈ files → f.field.length = g.lats.length ∧ (∀ r ∈ f.field, r.length = g.lons.length) ∧
        ∃ secs, f.lead = .ok secs) ↔
      files.length = ns * ds ∧ (∃ r, (files.map (Option.map MaskedFile.stored)).mapM (fileField g.stored.lats.length g.stored.lons.length) = .ok r) ∧
        ∃ r, files.mapM metTimes = .ok r := by
    rw [hF, hT]
    constructor
    · rintro ⟨h1, h2⟩
      exact ⟨h1, fun f hf => ⟨(h2 f hf).1, (h2 f hf).2.1⟩, fun f hf => (h2 f hf).2.2⟩
    · rintro ⟨h1, h2, h3⟩
      exact ⟨h1, fun f hf => ⟨(h2 f hf).1, (h2 f hf).2, h3 f hf⟩⟩
  rw [hsplit]
  unfold readNcMetTimes readNcMet
  rw [hr]
  simp only [bind, Except.bind, pure, Except.pure, List.length_map]
  cases (files.map (Option.map MaskedFile.stored)).mapM (fileField g.stored.lats.length g.stored.lons.length) with
  | error e => simp
  | ok a =>
    dsimp only
    by_cases hn : files.length = ns * ds
    · rw [if_pos hn]
      dsimp only
      cases files.mapM metTimes with
      | error e => simp
      | ok b => simp [hn]
    · rw [if_neg hn]
      simp [hn]

/-- C282, without any file: an exception. -/
theorem C282_no_file (files : List (Option MaskedFile)) (ns ds : ℕ) (h : ∀ x ∈ files, x = none) :
    readNcMetTimes files ns ds = .error .valueError := by
  have e : (files.map (Option.map MaskedFile.stored)).reduceOption = [] := by
    rw [List.eq_nil_iff_forall_not_mem]
    intro g hg
    obtain ⟨x, hx, hxe⟩ := List.mem_map.1 (List.reduceOption_mem_iff.1 hg)
    rw [h x hx] at hxe
    cases hxe
  unfold readNcMetTimes readNcMet
  rw [e]
  rfl

/-- One file too few. -/
example : ¬ ∃ r, readNcMetTimes [some maskedExample, none, some maskedExample] 2 2 = .ok r :=
  (C282_returns _ 2 2 maskedExample rfl).not.mpr (by simp)

end Props
end Metcalcpy
