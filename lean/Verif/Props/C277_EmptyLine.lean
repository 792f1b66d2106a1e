/-
C277 Lines without matched pairs and lines with missing partial sums.
-/
import Verif.Props.C07_Table
import Verif.Props.C275_ErrorOrder

namespace Metcalcpy.Spec

/-- The line `r` holds `v` in the (first) column called `c`. -/
def LineHolds (cols : List String) (r : List Cell) (c : String) (v : Cell) : Prop :=
  ∃ i : ℕ, cols[i]? = some c ∧ (∀ j < i, cols[j]? ≠ some c) ∧ r[i]? = some v

end Metcalcpy.Spec

namespace Metcalcpy.Props
open Metcalcpy Spec

/-- Two tables that differ by one line `r`; the line has total 0 and nothing, or 0, in the columns `done`; the columns `done` of the other
lines have a value, and the columns `todo` have a value in a line with a total. -/
structure OneMore (cols done todo : List String) (pre post : List (List Cell)) (r : List Cell) : Prop where
  len : ∀ x ∈ pre ++ r :: post, x.length = cols.length
  total : LineHolds cols r "total" (some 0)
  totals : ∃ x ∈ pre ++ post, ∃ v, LineHolds cols x "total" (some v)
  done : ∀ c ∈ done, (LineHolds cols r c none ∨ LineHolds cols r c (some 0)) ∧ ∃ x ∈ pre ++ post, ∃ v, LineHolds cols x c (some v)
  todo : ∀ c ∈ todo, ∃ x ∈ pre ++ post, ∃ a b, LineHolds cols x c (some a) ∧ LineHolds cols x "total" (some b)

theorem lineHolds_idx {cols : List String} {rows : List (List Cell)} {r : List Cell} {c : String} {v : Cell} (h : LineHolds cols r c v) :
    ∃ i, (Table.mk cols rows).colIdx? c = some i ∧ r[i]? = some v := by
  obtain ⟨i, h1, h2, h3⟩ := h
  exact ⟨i, colIdx?_eq_some.mpr ⟨h1, h2⟩, h3⟩

theorem lineHolds_of {cols : List String} {rows : List (List Cell)} {r : List Cell} {c : String} {v : Cell} {i : ℕ}
    (h : (Table.mk cols rows).colIdx? c = some i) (h3 : r[i]? = some v) : LineHolds cols r c v := by
  obtain ⟨h1, h2⟩ := colIdx?_eq_some.mp h
  exact ⟨i, h1, h2, h3⟩

theorem colIdx?_rows (cols : List String) (rows rows' : List (List Cell)) (c : String) :
    (Table.mk cols rows).colIdx? c = (Table.mk cols rows').colIdx? c := rfl

/-- The line after one multiplication. -/
def mulLine (i j : ℕ) (r : List Cell) : List Cell := r.set i (mulCell ((r[i]?).getD none) ((r[j]?).getD none))

/-- One multiplication. -/
theorem OneMore.step {cols done todo : List String} {pre post : List (List Cell)} {r : List Cell} {c : String}
    (h : OneMore cols done (c :: todo) pre post r) (hc : c ≠ "total") (hd : c ∉ done) (ht : c ∉ todo) :
    ∃ g : List Cell → List Cell, (∀ rows, mulColumn "total" ⟨cols, rows⟩ c = .ok ⟨cols, rows.map g⟩) ∧
      OneMore cols (c :: done) todo (pre.map g) (post.map g) (g r) := by
  obtain ⟨x0, hx0, a0, b0, e1, e2⟩ := h.todo c (by simp)
  obtain ⟨i, hi, hxi⟩ := lineHolds_idx (rows := []) e1
  obtain ⟨j, hj, hxj⟩ := lineHolds_idx (rows := []) e2
  have hij : i ≠ j := by rintro rfl; exact hc (colIdx?_inj hi hj)
  have hil : i < cols.length := by
    obtain ⟨h1, -⟩ := colIdx?_eq_some.mp hi
    exact (List.getElem?_eq_some_iff.mp h1).1
  refine ⟨mulLine i j, fun rows => ?_, ?_⟩
  · unfold mulColumn
    rw [colIdx?_rows cols rows [], colIdx?_rows cols rows [], hi, hj]
    rfl
  -- other columns are kept
  have keep : ∀ (x : List Cell) (d : String) (v : Cell), d ≠ c → LineHolds cols x d v →
      LineHolds cols (mulLine i j x) d v := by
    intro x d v hne hx
    obtain ⟨k, hk, hxk⟩ := lineHolds_idx (rows := []) hx
    refine lineHolds_of hk ?_
    unfold mulLine
    rw [List.getElem?_set_ne (by rintro rfl; exact hne (colIdx?_inj hk hi)), hxk]
  have new : ∀ (x : List Cell), x.length = cols.length →
      LineHolds cols (mulLine i j x) c (mulCell ((x[i]?).getD none) ((x[j]?).getD none)) := by
    intro x hx
    exact lineHolds_of hi (List.getElem?_set_self (by omega))
  have mem : ∀ {x : List Cell} {g : List Cell → List Cell}, x ∈ pre ++ post → g x ∈ pre.map g ++ post.map g := by
    intro x g hx
    rw [← List.map_append]
    exact List.mem_map_of_mem hx
  have hlen : ∀ x ∈ pre ++ post, x.length = cols.length := fun x hx => h.len x (by
    simp only [List.mem_append, List.mem_cons] at hx ⊢; tauto)
  refine ⟨?_, keep _ _ _ (Ne.symm hc) h.total, ?_, ?_, ?_⟩
  · intro x hx
    rw [← List.map_cons, ← List.map_append] at hx
    obtain ⟨y, hy, rfl⟩ := List.mem_map.mp hx
    unfold mulLine
    rw [List.length_set]
    exact h.len y hy
  · obtain ⟨x, hx, v, hv⟩ := h.totals
    exact ⟨_, mem hx, v, keep _ _ _ (Ne.symm hc) hv⟩
  · intro d hdm
    rcases List.mem_cons.mp hdm with rfl | hdm'
    · constructor
      · have hn := new r (h.len r (by simp))
        obtain ⟨j', hj', hr0⟩ := lineHolds_idx (rows := []) h.total
        rw [hj] at hj'
        obtain rfl := Option.some.inj hj'
        rw [hr0] at hn
        generalize (r[i]?).getD none = y at hn
        cases y with
        | none => exact Or.inl hn
        | some q =>
          right
          simpa [mulCell] using hn
      · refine ⟨_, mem hx0, a0 * b0, ?_⟩
        have hn := new x0 (hlen x0 hx0)
        rw [hxi, hxj] at hn
        exact hn
    · have hne : d ≠ c := by rintro rfl; exact hd hdm'
      obtain ⟨o, x, hx, v, hv⟩ := h.done d hdm'
      exact ⟨o.imp (keep _ _ _ hne) (keep _ _ _ hne), _, mem hx, v, keep _ _ _ hne hv⟩
  · intro d hdm
    have hne : d ≠ c := by rintro rfl; exact ht hdm
    obtain ⟨x, hx, a, b, h1, h2⟩ := h.todo d (by simp [hdm])
    exact ⟨_, mem hx, a, b, keep _ _ _ hne h1, keep _ _ _ (Ne.symm hc) h2⟩

theorem OneMore.prepared {cols : List String} : ∀ {todo done : List String} {pre post : List (List Cell)} {r : List Cell},
    OneMore cols done todo pre post r → (done ++ todo).Nodup → "total" ∉ todo →
    ∃ pre' post' r', todo.foldlM (mulColumn "total") ⟨cols, pre ++ post⟩ = .ok ⟨cols, pre' ++ post'⟩ ∧
      todo.foldlM (mulColumn "total") ⟨cols, pre ++ r :: post⟩ = .ok ⟨cols, pre' ++ r' :: post'⟩ ∧
      ∃ done', (∀ c, c ∈ done ++ todo → c ∈ done') ∧ OneMore cols done' [] pre' post' r' := by
  intro todo
  induction todo with
  | nil => intro done pre post r h _ _; exact ⟨pre, post, r, rfl, rfl, done, by simp, h⟩
  | cons c todo ih =>
    intro done pre post r h hnd ht
    have hnd' := List.nodup_append.mp hnd
    obtain ⟨g, hg, h'⟩ := h.step (fun e => ht (by simp [e])) (fun hc => hnd'.2.2 c hc c (by simp) rfl) (List.nodup_cons.mp hnd'.2.1).1
    obtain ⟨pre', post', r', e1, e2, done', hs, hf⟩ := ih h' (by
      rw [List.cons_append]
      exact (List.perm_middle.nodup_iff).mp hnd) (fun h => ht (by simp [h]))
    refine ⟨pre', post', r', ?_, ?_, done', fun d hd => hs d (by simp only [List.mem_append, List.mem_cons] at hd ⊢; tauto), hf⟩
    · rw [List.foldlM_cons, hg]
      simp only [bind, Except.bind]
      rw [List.map_append]
      exact e1
    · rw [List.foldlM_cons, hg]
      simp only [bind, Except.bind]
      rw [List.map_append, List.map_cons]
      exact e2

/-- A cell that is missing or 0 does not change a column sum. -/
theorem sumColumn_more {cols : List String} {pre post : List (List Cell)} {r : List Cell} {c : String} (rm : Bool) (hrm : rm = true)
    (hlen : ∀ x ∈ pre ++ r :: post, x.length = cols.length)
    (hr : LineHolds cols r c none ∨ LineHolds cols r c (some 0)) (hx : ∃ x ∈ pre ++ post, ∃ v, LineHolds cols x c (some v)) :
    sumColumn ⟨cols, pre ++ r :: post⟩ c rm = sumColumn ⟨cols, pre ++ post⟩ c rm := by
  subst hrm
  obtain ⟨x, hxm, v, hv⟩ := hx
  obtain ⟨i, hi, hxi⟩ := lineHolds_idx (rows := []) hv
  have hr' : r[i]? = some none ∨ r[i]? = some (some 0) := by
    rcases hr with h | h <;>
      (obtain ⟨k, hk, e⟩ := lineHolds_idx (rows := []) h
       rw [hi] at hk
       obtain rfl := Option.some.inj hk
       simp [e])
  have hil : i < cols.length := by
    obtain ⟨h1, -⟩ := colIdx?_eq_some.mp hi
    exact (List.getElem?_eq_some_iff.mp h1).1
  have hmap : ∀ l : List (List Cell), (∀ x ∈ l, x.length = cols.length) →
      l.mapM (fun r => r[i]?) = some (l.map (fun r => (r[i]?).getD none)) := by
    intro l
    induction l with
    | nil => intro _; rfl
    | cons y l ih =>
      intro hl
      rw [List.mapM_cons, ih (fun x hx => hl x (by simp [hx])),
        List.getElem?_eq_getElem (by rw [hl y (by simp)]; exact hil), List.map_cons,
        List.getElem?_eq_getElem (by rw [hl y (by simp)]; exact hil)]
      rfl
  have hlen' : ∀ x ∈ pre ++ post, x.length = cols.length := fun x hx => hlen x (by
    simp only [List.mem_append, List.mem_cons] at hx ⊢; tauto)
  unfold sumColumn columnData
  rw [colIdx?_rows cols _ [], colIdx?_rows cols (pre ++ post) [], hi]
  simp only
  rw [hmap _ hlen, hmap _ hlen']
  have hin : some v ∈ (pre ++ post).map (fun r => (r[i]?).getD none) := List.mem_map.mpr ⟨x, hxm, by rw [hxi]; rfl⟩
  have n1 : ¬ ((pre ++ post).map (fun r => (r[i]?).getD none)).all Option.isNone = true := by
    intro hall
    have := List.all_eq_true.mp hall _ hin
    simp at this
  have n2 : ¬ ((pre ++ r :: post).map (fun r => (r[i]?).getD none)).all Option.isNone = true := by
    intro hall
    have := List.all_eq_true.mp hall (some v) (by
      simp only [List.map_append, List.map_cons, List.mem_append, List.mem_cons] at hin ⊢; tauto)
    simp at this
  simp only [if_neg n1, if_neg n2, if_true]
  congr 1
  rcases hr' with e | e <;> simp [e]

/-- The sums of the prepared tables agree. -/
theorem prepared_more {cols : List String} {pre post : List (List Cell)} {r : List Cell} {fields : List String}
    (hnd : fields.Nodup) (ht : "total" ∉ fields) (h : OneMore cols [] fields pre post r) :
    ∃ p p', prepareFields ⟨cols, pre ++ post⟩ (some fields) = .ok p ∧ prepareFields ⟨cols, pre ++ r :: post⟩ (some fields) = .ok p' ∧
      ∀ c ∈ "total" :: fields, sumColumn p' c = sumColumn p c := by
  obtain ⟨pre', post', r', e1, e2, done', hs, hf⟩ := h.prepared (by simpa using hnd) ht
  refine ⟨_, _, e1, e2, fun c hc => ?_⟩
  rcases List.mem_cons.mp hc with rfl | hc
  · exact sumColumn_more true rfl hf.len (Or.inr hf.total) hf.totals
  · obtain ⟨o, hx⟩ := hf.done c (hs c (by simpa using hc))
    exact sumColumn_more true rfl hf.len o hx

theorem aggregated_more {α : Type} {cols : List String} {pre post : List (List Cell)} {r : List Cell} {stat : String}
    {calculate : Table → Bool → α} {fields : List String} (hf : fieldsOf stat = some fields)
    (hnd : fields.Nodup) (ht : "total" ∉ fields) (h : OneMore cols [] fields pre post r)
    (hcalc : ∀ p p' : Table, (∀ c ∈ "total" :: fields, sumColumn p' c = sumColumn p c) → calculate p' true = calculate p true) :
    aggregated stat calculate ⟨cols, pre ++ r :: post⟩ = aggregated stat calculate ⟨cols, pre ++ post⟩ := by
  obtain ⟨p, p', e1, e2, hs⟩ := prepared_more hnd ht h
  rw [aggregated_ok (by rw [hf]; exact e2), aggregated_ok (by rw [hf]; exact e1), hcalc p p' hs]

/-- C277, lines without matched pairs: a line with TOTAL = 0 changes no score of its group, whatever else it holds, as soon as every
partial sum is present in some line with a total. -/
theorem C277_empty_line (cols : List String) (pre post : List (List Cell)) (r : List Cell)
    (hlen : ∀ x ∈ pre ++ r :: post, x.length = cols.length) (hr : LineHolds cols r "total" (some 0))
    (hp : ∀ c ∈ ["fbar", "obar", "fobar", "ffbar", "oobar", "mae"], ∃ x ∈ pre ++ post, ∃ a n,
      LineHolds cols x c (some a) ∧ LineHolds cols x "total" (some n)) :
    (∀ q ∈ [("fbar", slMean "fbar"), ("obar", slMean "obar"), ("fobar", slMean "fobar"), ("ffbar", slMean "ffbar"),
        ("oobar", slMean "oobar"), ("mae", slMean "mae"), ("mbias", slMbias), ("me", slMe), ("me2", slMe2), ("mse", slMse),
        ("bcmse", slBcmse)],
      aggregated q.1 q.2 ⟨cols, pre ++ r :: post⟩ = aggregated q.1 q.2 ⟨cols, pre ++ post⟩) ∧
    (∀ q ∈ [("fstdev", slFstdev), ("ostdev", slOstdev), ("pr_corr", slPrCorr)],
      aggregated q.1 q.2 ⟨cols, pre ++ r :: post⟩ = aggregated q.1 q.2 ⟨cols, pre ++ post⟩) ∧
    (∀ q ∈ [("rmse", slRmse), ("bcrmse", slBcrmse), ("si", slSi), ("estdev", slEstdev)],
      aggregated q.1 q.2 ⟨cols, pre ++ r :: post⟩ = aggregated q.1 q.2 ⟨cols, pre ++ post⟩) := by
  have key : ∀ fields : List String, (∀ c ∈ fields, c ∈ ["fbar", "obar", "fobar", "ffbar", "oobar", "mae"]) →
      OneMore cols [] fields pre post r := by
    intro fields hf
    obtain ⟨x, hx, -, n, -, hn⟩ := hp "fbar" (by simp)
    exact ⟨hlen, hr, ⟨x, hx, n, hn⟩, by simp, fun c hc => hp c (hf c hc)⟩
  refine ⟨?_, ?_, ?_⟩
  all_goals
    intro q hq
    simp only [List.mem_cons, List.not_mem_nil, or_false] at hq
  · rcases hq with rfl | rfl | rfl | rfl | rfl | rfl | rfl | rfl | rfl | rfl | rfl
    all_goals
      refine aggregated_more rfl (by decide) (by decide) (key _ (by decide)) (fun p p' hs => ?_)
      simp only [List.mem_cons, List.not_mem_nil, or_false, forall_eq_or_imp, forall_eq] at hs
      simp only [slMean, slMbias, slMe, slMe2, slMse, slBcmse, getTotalValues, hs]
  · rcases hq with rfl | rfl | rfl
    all_goals
      refine aggregated_more rfl (by decide) (by decide) (key _ (by decide)) (fun p p' hs => ?_)
      simp only [List.mem_cons, List.not_mem_nil, or_false, forall_eq_or_imp, forall_eq] at hs
      simp only [slFstdev, slOstdev, slStdevOf, slPrCorr, hs]
  · rcases hq with rfl | rfl | rfl | rfl
    all_goals
      refine aggregated_more rfl (by decide) (by decide) (key _ (by decide)) (fun p p' hs => ?_)
      simp only [List.mem_cons, List.not_mem_nil, or_false, forall_eq_or_imp, forall_eq] at hs
      simp only [slRmse, slBcrmse, slSi, slEstdev, slMean, slMe, slMse, slBcmse, getTotalValues, hs]

theorem sumColumn_appended {cols : List String} {rows : List (List Cell)} {r : List Cell} {c : String} {v : Cell} {S : ℚ}
    (hr : LineHolds cols r c v) (hs : sumColumn ⟨cols, rows⟩ c = some S) :
    sumColumn ⟨cols, rows ++ [r]⟩ c = some (S + v.getD 0) := by
  obtain ⟨cells, ⟨i, h1, h2, h3⟩, ⟨w, hw⟩, -, rfl⟩ := C07_sum_sound _ _ _ _ hs
  obtain ⟨k, k1, k2, k3⟩ := hr
  have hik : i = k := by
    rcases lt_trichotomy i k with h | h | h
    · exact absurd h1 (k2 i h)
    · exact h
    · exact absurd k1 (h2 k h)
  subst hik
  have hcol : IsColumn ⟨cols, rows ++ [r]⟩ c (cells ++ [v]) := by
    refine ⟨i, h1, h2, ?_⟩
    simp only [List.map_append, List.map_cons, List.map_nil] at h3 ⊢
    rw [h3, k3]
  rw [(C07_column_sum _ _ _ true hcol).2.2 ⟨w, by simp [hw]⟩ (Or.inl rfl)]
  simp

/-- C277, lines with missing values: false.  A line of `k` pairs whose mean is missing is left out of the sum but its pairs are counted
in the divisor: the reported mean of complete lines with `n` pairs is multiplied by `n / (n + k)`. -/
theorem C277_missing_value_counterexample (cols : List String) (rows : List (List Cell)) (bs : List (List Pair))
    (D : Sl1l2Data ⟨cols, rows⟩ bs) (r : List Cell) (k : ℚ) (g : Pair → ℚ) (c : String)
    (hc : (c = "fbar" ∧ g = Prod.fst) ∨ (c = "obar" ∧ g = Prod.snd) ∨ (c = "ffbar" ∧ g = fun p => p.1 * p.1) ∨
      (c = "oobar" ∧ g = fun p => p.2 * p.2) ∨ (c = "fobar" ∧ g = fun p => p.1 * p.2))
    (hk : 0 < k) (hr : LineHolds cols r "total" (some k)) (hm : LineHolds cols r c none) (n : ℚ) (hn : n = bs.flatten.length) :
    aggregated c (slMean c) ⟨cols, rows⟩ = .ok (some (roundHalfUp (avg g bs.flatten) 7)) ∧
    aggregated c (slMean c) ⟨cols, rows ++ [r]⟩ = .ok (some (roundHalfUp (avg g bs.flatten * (n / (n + k))) 7)) := by
  have hg : gSl c = g ∧ fieldsOf c = some [c] ∧ c ≠ "total" ∧ ∀ d ∈ [c], d ∈ ["fbar", "obar", "fobar", "ffbar", "oobar"] := by
    rcases hc with ⟨rfl, rfl⟩ | ⟨rfl, rfl⟩ | ⟨rfl, rfl⟩ | ⟨rfl, rfl⟩ | ⟨rfl, rfl⟩
    · exact ⟨by funext p; simp [gSl], rfl, by decide, by decide⟩
    · exact ⟨by funext p; simp [gSl], rfl, by decide, by decide⟩
    · exact ⟨gSl_ff, rfl, by decide, by decide⟩
    · exact ⟨gSl_oo, rfl, by decide, by decide⟩
    · exact ⟨gSl_fo, rfl, by decide, by decide⟩
  obtain ⟨hg, hf, hct, hsub⟩ := hg
  obtain ⟨t', hp, htot, hsum, hpos⟩ := sl_prepared D c [c] hf (by simp) hsub
  have hsum := hsum c (by simp)
  rw [hg] at hsum
  rw [← hn] at htot hpos
  obtain ⟨i, hi, hri⟩ := lineHolds_idx (rows := []) hm
  obtain ⟨j, hj, hrj⟩ := lineHolds_idx (rows := []) hr
  have hmul : ∀ rows, prepareFields ⟨cols, rows⟩ (fieldsOf c) = .ok ⟨cols, rows.map (mulLine i j)⟩ := by
    intro rows
    rw [hf]
    unfold prepareFields mulColumn
    simp only [List.foldlM_cons, List.foldlM_nil]
    rw [colIdx?_rows cols rows [], colIdx?_rows cols rows [], hi, hj]
    rfl
  rw [hmul] at hp
  obtain rfl := Except.ok.inj hp
  have hil : i < r.length := (List.getElem?_eq_some_iff.mp hri).1
  have hij : j ≠ i := by rintro rfl; exact hct (colIdx?_inj hi hj)
  have h1 : LineHolds cols (mulLine i j r) c none := by
    refine lineHolds_of hi ?_
    unfold mulLine
    rw [List.getElem?_set_self hil, hri]
    rfl
  have h2 : LineHolds cols (mulLine i j r) "total" (some k) := by
    refine lineHolds_of hj ?_
    unfold mulLine
    rw [List.getElem?_set_ne hij.symm, hrj]
  have s1 := sumColumn_appended h1 hsum
  have s2 := sumColumn_appended h2 htot
  simp only [Option.getD_none, add_zero, Option.getD_some] at s1 s2
  have hne : n ≠ 0 := hpos.ne'
  have hne' : n + k ≠ 0 := by positivity
  constructor
  · rw [aggregated_ok (hmul rows)]
    simp only [slMean, getTotalValues, if_true, htot, hsum, pyDiv, Option.bind_eq_bind, Option.bind_some, if_neg hne, PRECISION]
    unfold avg
    rw [hn]
  · rw [aggregated_ok (hmul _), List.map_append, List.map_cons, List.map_nil]
    simp only [slMean, getTotalValues, if_true, s1, s2, pyDiv, Option.bind_eq_bind, Option.bind_some, if_neg hne', PRECISION]
    unfold avg
    rw [← hn]
    congr 3
    field_simp

/-- A line of two pairs, one of none with leftover values: the hypotheses of `C277_empty_line` hold. -/
example : aggregated "me" slMe ⟨["total", "fbar", "obar", "fobar", "ffbar", "oobar", "mae"],
      [[some 2, some 2, some 0, some 0, some 5, some 0, some 2], [some 0, some 7, none, some 1, none, some 3, some 9]]⟩ =
    aggregated "me" slMe ⟨["total", "fbar", "obar", "fobar", "ffbar", "oobar", "mae"],
      [[some 2, some 2, some 0, some 0, some 5, some 0, some 2]]⟩ := by
  have h := C277_empty_line ["total", "fbar", "obar", "fobar", "ffbar", "oobar", "mae"]
    [[some 2, some 2, some 0, some 0, some 5, some 0, some 2]] []
    [some 0, some 7, none, some 1, none, some 3, some 9] (by simp) ⟨0, rfl, by simp, rfl⟩ (by
      have hh : ∀ (i : ℕ) (c : String) (v : Cell), ["total", "fbar", "obar", "fobar", "ffbar", "oobar", "mae"][i]? = some c →
          ([some 2, some 2, some 0, some 0, some 5, some 0, some 2] : List Cell)[i]? = some v →
          LineHolds ["total", "fbar", "obar", "fobar", "ffbar", "oobar", "mae"]
            [some 2, some 2, some 0, some 0, some 5, some 0, some 2] c v := by
        intro i c v h1 h2
        refine ⟨i, h1, fun m hm hc => ?_, h2⟩
        have hn : ["total", "fbar", "obar", "fobar", "ffbar", "oobar", "mae"].Nodup := by decide
        have hi := (List.getElem?_eq_some_iff.mp h1)
        have hj := (List.getElem?_eq_some_iff.mp hc)
        exact absurd ((hn.getElem_inj_iff (hi := hj.1) (hj := hi.1)).mp (hj.2.trans hi.2.symm)) (by omega)
      intro c hc
      refine ⟨[some 2, some 2, some 0, some 0, some 5, some 0, some 2], by simp, ?_⟩
      simp only [List.mem_cons, List.not_mem_nil, or_false] at hc
      rcases hc with rfl | rfl | rfl | rfl | rfl | rfl
      · exact ⟨_, 2, hh 1 _ _ rfl rfl, hh 0 _ _ rfl rfl⟩
      · exact ⟨_, 2, hh 2 _ _ rfl rfl, hh 0 _ _ rfl rfl⟩
      · exact ⟨_, 2, hh 3 _ _ rfl rfl, hh 0 _ _ rfl rfl⟩
      · exact ⟨_, 2, hh 4 _ _ rfl rfl, hh 0 _ _ rfl rfl⟩
      · exact ⟨_, 2, hh 5 _ _ rfl rfl, hh 0 _ _ rfl rfl⟩
      · exact ⟨_, 2, hh 6 _ _ rfl rfl, hh 0 _ _ rfl rfl⟩)
  exact h.1 ("me", slMe) (by simp)

/-- The mean forecast of two pairs is 2; a second line of two pairs without FBAR makes it 1. -/
example : aggregated "fbar" (slMean "fbar") exEst = .ok (some 2) ∧
    aggregated "fbar" (slMean "fbar")
      ⟨exEst.cols, exEst.rows ++ [[some 2, none, some 0, some 0, some 5, some 0]]⟩ = .ok (some 1) := by
  have h := C277_missing_value_counterexample exEst.cols exEst.rows _ exEst_data
    [some 2, none, some 0, some 0, some 5, some 0] 2 Prod.fst "fbar" (Or.inl ⟨rfl, rfl⟩) (by norm_num)
    ⟨0, rfl, by simp, rfl⟩ ⟨1, rfl, by intro m hm; interval_cases m; simp [exEst], rfl⟩ 2 (by simp)
  refine ⟨h.1.trans ?_, h.2.trans ?_⟩
  · norm_num [avg, roundHalfUp]
  · norm_num [avg, roundHalfUp]

end Metcalcpy.Props
