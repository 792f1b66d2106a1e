/-
C132  The lead label of a field gives hours, minutes and seconds of the lead.
C133  The matched pair file of a day has one line of 37 columns per point, under a name of its own.
-/
import Verif.Model.RegimeIO
import Verif.Lemmas.IntText
import Mathlib.Tactic.Linarith
import Mathlib.Tactic.NormNum

namespace Metcalcpy.Props
open Metcalcpy Spec

/-! ### C132 -/

theorem decimalNumber_snoc (ds : List Char) (c : Char) :
    decimalNumber (ds ++ [c]) = 10 * decimalNumber ds + (c.toNat - 48) := by
  unfold decimalNumber
  rw [List.reverse_append, List.reverse_singleton, List.singleton_append, List.map_cons, Nat.ofDigits_cons]
  simp; ring

theorem digitChar_value (n : ℕ) (h : n < 10) : n.digitChar.isDigit = true ∧ n.digitChar.toNat - 48 = n := by
  revert n; decide

theorem decimalNumber_toDigits (n : ℕ) : decimalNumber (Nat.toDigits 10 n) = n := by
  induction n using Nat.strong_induction_on with
  | _ n ih =>
    rw [Nat.toDigits_eq_if (by norm_num)]
    split
    · rename_i h
      have := (digitChar_value n h).2
      simpa [decimalNumber, Nat.ofDigits] using this
    · rename_i h
      rw [decimalNumber_snoc, ih (n / 10) (by omega), (digitChar_value (n % 10) (by omega)).2]
      omega

theorem digitText_of_digits : ∀ ds : List Char, ds ≠ [] → (∀ c ∈ ds, c.isDigit = true) → DigitText ds ds
  | [], h, _ => absurd rfl h
  | [c], _, h => .one (h c (by simp))
  | c :: d :: ds, _, h => .digit (h c (by simp)) (digitText_of_digits (d :: ds) (by simp) (fun x hx => h x (by simp [hx])))

theorem toDigits_text (n : ℕ) : DigitText (Nat.toDigits 10 n) (Nat.toDigits 10 n) :=
  digitText_of_digits _ Nat.toDigits_ne_nil (fun _ hc => Nat.isDigit_of_mem_toDigits (by norm_num) (by norm_num) hc)

theorem zfill2_text (z : ℤ) : IsIntText (String.ofList (zfill2 z)) z := by
  unfold zfill2 intChars
  by_cases hz : z < 0
  · simp only [hz, if_true]
    have : ¬ ('-' :: Nat.toDigits 10 z.natAbs).length < 2 := by
      have : Nat.toDigits 10 z.natAbs ≠ [] := Nat.toDigits_ne_nil
      have := List.length_pos_of_ne_nil this
      simp; omega
    rw [if_neg this]
    refine ⟨[], [], _, _, by simp, toDigits_text z.natAbs, .inr (.inr ⟨by simp, ?_⟩)⟩
    rw [decimalNumber_toDigits]; omega
  · simp only [hz, if_false]
    split
    · refine ⟨[], [], _, _, by simp, .digit (c := '0') (by decide) (toDigits_text z.natAbs), .inl ⟨by simp, ?_⟩⟩
      rw [decimalNumber_cons, decimalNumber_toDigits]
      have h0 : ('0' : Char).toNat - 48 = 0 := rfl
      rw [h0]; omega
    · refine ⟨[], [], _, _, by simp, toDigits_text z.natAbs, .inl ⟨by simp, ?_⟩⟩
      rw [decimalNumber_toDigits]; omega

theorem zfill2_length (z : ℤ) (h0 : 0 ≤ z) (h1 : z < 100) : (zfill2 z).length = 2 := by
  unfold zfill2 intChars
  simp only [not_lt.mpr h0, if_false]
  have h := (Nat.length_toDigits_le_iff (n := z.natAbs) (k := 2) (b := 10) (by norm_num) (by norm_num)).mpr (by omega)
  have hp := List.length_pos_of_ne_nil (Nat.toDigits_ne_nil (n := z.natAbs) (b := 10))
  split
  · simp; omega
  · omega

/-- C132: the label is a text of the hours followed by two digits of minutes and two digits of seconds, and these add up to the
lead; the hours are rounded down for a valid time before the initialisation. -/
theorem C132_label (secs : ℤ) : ∃ hh mm ss : String, leadLabel secs = hh ++ mm ++ ss ∧ mm.length = 2 ∧ ss.length = 2 ∧
    ∃ h m s : ℤ, IsIntText hh h ∧ IsIntText mm m ∧ IsIntText ss s ∧ 0 ≤ m ∧ m < 60 ∧ 0 ≤ s ∧ s < 60 ∧
      secs = 3600 * h + 60 * m + s ∧ (0 ≤ secs → 0 ≤ h) := by
  refine ⟨String.ofList (zfill2 (secs / 60 / 60)), String.ofList (zfill2 (secs / 60 % 60)), String.ofList (zfill2 (secs % 60)),
    ?_, ?_, ?_, secs / 60 / 60, secs / 60 % 60, secs % 60, zfill2_text _, zfill2_text _, zfill2_text _, by omega, by omega,
    by omega, by omega, by omega, by omega⟩
  · unfold leadLabel
    simp only [String.ofList_append]
  · rw [String.length_ofList]; exact zfill2_length _ (by omega) (by omega)
  · rw [String.length_ofList]; exact zfill2_length _ (by omega) (by omega)

theorem isIntText_unique {s : String} {z w : ℤ} (h : IsIntText s z) (h' : IsIntText s w) : z = w := by
  rw [← pyInt?_iff] at h h'
  rw [h] at h'
  exact Option.some.inj h'

/-- C132: different leads have different labels. -/
theorem C132_injective (s t : ℤ) (h : leadLabel s = leadLabel t) : s = t := by
  obtain ⟨h1, m1, s1, e1, lm1, ls1, a1, b1, c1, ta1, tb1, tc1, _, _, _, _, r1, _⟩ := C132_label s
  obtain ⟨h2, m2, s2, e2, lm2, ls2, a2, b2, c2, ta2, tb2, tc2, _, _, _, _, r2, _⟩ := C132_label t
  have e : h1.toList ++ m1.toList ++ s1.toList = h2.toList ++ m2.toList ++ s2.toList := by
    rw [← String.toList_append, ← String.toList_append, ← String.toList_append, ← String.toList_append, ← e1, ← e2, h]
  obtain ⟨e', es⟩ := List.append_inj' e (by simp only [String.length_toList, ls1, ls2])
  obtain ⟨eh, em⟩ := List.append_inj' e' (by simp only [String.length_toList, lm1, lm2])
  have eh' := String.toList_injective eh
  have em' := String.toList_injective em
  have es' := String.toList_injective es
  subst eh' em' es'
  rw [r1, r2, isIntText_unique ta1 ta2, isIntText_unique tb1 tb2, isIntText_unique tc1 tc2]

example : leadLabel 0 = "000000" ∧ leadLabel (36 * 3600 + 90) = "360130" ∧ leadLabel (240 * 3600) = "2400000" ∧
    leadLabel (-5400) = "-23000" := by
  decide +kernel

/-! ### C133 -/

/-- The columns of a line: its parts between blanks and line ends. -/
def columnsOf (line : List Char) : List (List Char) :=
  (line.splitOnP fun c => c == ' ' || c == '\n').filter fun w => !w.isEmpty

theorem columnsOf_blank (c : Char) (h : (c == ' ' || c == '\n') = true) (l : List Char) : columnsOf (c :: l) = columnsOf l := by
  unfold columnsOf
  rw [List.splitOnP_cons_eq_if_modifyHead, if_pos h]
  simp

theorem columnsOf_word (t : List Char) (ht : t ≠ []) (hb : ∀ c ∈ t, c ≠ ' ' ∧ c ≠ '\n') (c : Char)
    (h : (c == ' ' || c == '\n') = true) (l : List Char) : columnsOf (t ++ c :: l) = t :: columnsOf l := by
  unfold columnsOf
  rw [List.splitOnP_append_cons_of_forall_mem (fun x hx => by have := hb x hx; simp [this.1, this.2]) c h]
  rw [List.filter_cons_of_pos (by simpa using ht)]

theorem columnsOf_pad (w : ℕ) (t : List Char) (ht : t ≠ []) (hb : ∀ c ∈ t, c ≠ ' ' ∧ c ≠ '\n') (c : Char)
    (h : (c == ' ' || c == '\n') = true) (l : List Char) : columnsOf (padRight w t ++ c :: l) = t :: columnsOf l := by
  unfold padRight
  have hrep : ∀ (n : ℕ) (l : List Char), columnsOf (List.replicate n ' ' ++ l) = columnsOf l := by
    intro n
    induction n with
    | zero => intro l; rfl
    | succ n ih => intro l; rw [List.replicate_succ, List.cons_append, columnsOf_blank _ (by decide), ih]
  cases hw : w - t.length with
  | zero => simp only [List.replicate_zero, List.append_nil]; exact columnsOf_word t ht hb c h l
  | succ n =>
    rw [List.replicate_succ, List.append_assoc, List.cons_append, columnsOf_word t ht hb ' ' (by decide), hrep,
      columnsOf_blank c h]

theorem columnsOf_format : ∀ cols : List (ℕ × List Char), (∀ p ∈ cols, p.2 ≠ [] ∧ ∀ c ∈ p.2, c ≠ ' ' ∧ c ≠ '\n') →
    columnsOf (formatColumns cols) = cols.map Prod.snd
  | [], _ => by decide +kernel
  | [(w, t)], h => by
    obtain ⟨h1, h2⟩ := h (w, t) (by simp)
    rw [formatColumns, columnsOf_pad w t h1 h2 '\n' (by decide)]
    rfl
  | (w, t) :: p :: rest, h => by
    obtain ⟨h1, h2⟩ := h (w, t) (by simp)
    rw [formatColumns, columnsOf_pad w t h1 h2 ' ' (by decide),
      columnsOf_format (p :: rest) (fun q hq => h q (by simp [hq]))]
    · rfl
    · simp

/-- C133: when all texts are present and contain no blanks, the line of a point reads back as its 37 columns, whatever the
widths: the times and names of forecast and observation, the number of points, the number of the point, its position, and
forecast before observation.  Missing: a day without observation times (next theorem). -/
theorem C133_columns_partial (i : MprInfo) (fLead fValid oLead oValid total index lat lon fcst obs : String)
    (h : ∀ t ∈ mprFields i fLead fValid oLead oValid total index lat lon fcst obs,
      t ≠ "" ∧ ∀ c ∈ t.toList, c ≠ ' ' ∧ c ≠ '\n') :
    columnsOf (mprLine i fLead fValid oLead oValid total index lat lon fcst obs) =
      ["V9.1", i.mname, i.desc, fLead, fValid, fValid, oLead, oValid, oValid, i.fvar, i.funit, i.flev, i.ovar, i.ounit, i.olev,
       "ADPUPA", i.maskname, "NEAREST", "1", "NA", "NA", "NA", "NA", "MPR", total, index, "NA", lat, lon, i.obslev, "NA",
       fcst, obs, "NA", "NA", "NA", "NA"].map String.toList := by
  unfold mprLine
  rw [columnsOf_format]
  · rw [← List.map_snd_zip (l₁ := mprWidths i)
      (l₂ := (mprFields i fLead fValid oLead oValid total index lat lon fcst obs).map String.toList) (by
        simp [mprWidths, mprFields])]
    rw [List.map_snd_zip (by simp [mprWidths, mprFields])]
    rfl
  · intro p hp
    have := (List.of_mem_zip hp).2
    obtain ⟨t, ht, e⟩ := List.mem_map.mp this
    rw [← e]
    refine ⟨fun hnil => (h t ht).1 ?_, (h t ht).2⟩
    exact String.toList_injective (by rw [hnil]; rfl)

/-- C133: the file of a day holds one line per point, numbered from 1; a day without forecast time has no file. -/
theorem C133_file (i : MprInfo) (outfile : String) (d : MprDay) :
    (d.fValid = "" → mprFile i outfile d = none) ∧
    (d.fValid ≠ "" → ∃ name lines, mprFile i outfile d = some (name, lines) ∧ lines.length = d.points.length ∧
      ∀ (k : ℕ) (p : String × String × String × String), d.points[k]? = some p →
        lines[k]? = some (mprLine i d.fLead d.fValid d.oLead d.oValid (toString d.points.length) (toString (k + 1))
          p.1 p.2.1 p.2.2.1 p.2.2.2)) := by
  unfold mprFile
  constructor
  · intro h; rw [if_pos h]
  · intro h
    rw [if_neg h]
    refine ⟨_, _, rfl, by simp, fun k p hp => ?_⟩
    rw [List.getElem?_mapIdx, hp]
    rfl

/-- C133: days with different leads or valid times (15 characters with a separator at the ninth) have different files. -/
theorem C133_names (outfile lead valid lead' valid' : List Char) (h1 : valid.length = 15) (h2 : valid'.length = 15)
    (hs : valid[8]? = some '_') (hs' : valid'[8]? = some '_')
    (h : mprName outfile lead valid = mprName outfile lead' valid') : lead = lead' ∧ valid = valid' := by
  have key : ∀ v : List Char, v.length = 15 → v[8]? = some '_' → v.take 8 ++ '_' :: ((v.drop 9).take 6) = v := by
    intro v hv h8
    have e1 : (v.drop 9).take 6 = v.drop 9 := List.take_of_length_le (by simp [hv])
    rw [e1]
    obtain ⟨hlt, e8⟩ := List.getElem?_eq_some_iff.mp h8
    rw [← e8, ← List.drop_eq_getElem_cons hlt, List.take_append_drop]
  have form : ∀ l v : List Char, v.length = 15 → v[8]? = some '_' →
      mprName outfile l v = (outfile ++ ['_'] ++ l) ++ (['L', '_'] ++ v ++ 'V' :: ".stat".toList) := by
    intro l v hv h8
    unfold mprName
    rw [show v.take 8 ++ '_' :: ((v.drop 9).take 6 ++ ['V']) = (v.take 8 ++ '_' :: ((v.drop 9).take 6)) ++ ['V'] by simp,
      key v hv h8]
    simp
  rw [form lead valid h1 hs, form lead' valid' h2 hs'] at h
  obtain ⟨e1, e2⟩ := List.append_inj' h (by simp [h1, h2])
  refine ⟨List.append_cancel_left e1, ?_⟩
  have e3 := List.append_cancel_right e2
  exact List.append_cancel_left e3

/-- Names for examples. -/
def exMpr : MprInfo :=
  { mname := "GFS", desc := "NA", fvar := "Z500", funit := "m", flev := "P500", ovar := "Z500", ounit := "m", olev := "P500",
    maskname := "NH", obslev := "500" }

/-- C133 is false for a day on which only the forecast file exists: the observation times are empty texts, which leave no
column, so that the line has 34 columns and every later value is read under a wrong name. -/
theorem C133_missing_observation_counterexample :
    (columnsOf (mprLine exMpr "240000" "20200101_000000" "" "" "1" "1" "45.0000" "10.0000" "5400.0000" "nan")).length = 34 := by
  decide +kernel

example : ∀ t ∈ mprFields exMpr "240000" "20200101_000000" "000000" "20200101_000000" "1" "1" "45.0000" "10.0000" "5400.0000"
    "5410.0000", t ≠ "" ∧ ∀ c ∈ t.toList, c ≠ ' ' ∧ c ≠ '\n' := by
  decide +kernel

end Metcalcpy.Props
