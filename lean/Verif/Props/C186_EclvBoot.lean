/-
C186  Resampling does not change the table of economic values; it adds limits, absent or ordered.
-/
import Verif.Model.AggEclvBoot
import Verif.Props.C30_Interval
import Verif.Props.C115_AggEclv

namespace Metcalcpy.Props
open Metcalcpy

theorem mapM_relate {α β γ : Type} (f : α → Except PyErr β) (g : α → Except PyErr γ) (R : β → γ → Prop)
    (h : ∀ a b, f a = .ok b → ∃ c, g a = .ok c ∧ R b c) : ∀ (l : List α) (bs : List β), l.mapM f = .ok bs →
    ∃ cs, l.mapM g = .ok cs ∧ List.Forall₂ R bs cs
  | [], bs, hl => by
    obtain rfl := Except.ok.inj hl
    exact ⟨[], rfl, .nil⟩
  | a :: l, bs, hl => by
    rw [List.mapM_cons] at hl
    cases ha : f a with
    | error e => rw [ha] at hl; cases hl
    | ok b =>
      cases hr : l.mapM f with
      | error e => rw [ha, hr] at hl; cases hl
      | ok bs' =>
        rw [ha, hr] at hl
        obtain rfl := Except.ok.inj hl
        obtain ⟨c, hc, hR⟩ := h a b ha
        obtain ⟨cs, hcs, hRs⟩ := mapM_relate f g R h l bs' hr
        refine ⟨c :: cs, ?_, .cons hR hRs⟩
        rw [List.mapM_cons, hc, hcs]
        rfl

theorem mapM_ok_length {α β : Type} (f : α → Except PyErr β) : ∀ (l : List α) (bs : List β), l.mapM f = .ok bs → bs.length = l.length
  | [], bs, hl => by
    obtain rfl := Except.ok.inj hl
    rfl
  | a :: l, bs, hl => by
    rw [List.mapM_cons] at hl
    cases ha : f a with
    | error e => rw [ha] at hl; cases hl
    | ok b =>
      cases hr : l.mapM f with
      | error e => rw [ha, hr] at hl; cases hl
      | ok bs' =>
        rw [ha, hr] at hl
        obtain rfl := Except.ok.inj hl
        simp [mapM_ok_length f l bs' hr]

/-- No limits, or an ordered pair of them. -/
def LimitsOk (b : EclvBootOut) : Prop :=
  (b.lower = none ∧ b.upper = none) ∨ ∃ lo hi, b.lower = some lo ∧ b.upper = some hi ∧ lo ≤ hi

theorem zipWith_rows : ∀ (rs : List EclvOut) (l : List (Option ℚ × Option ℚ)),
    (∀ p ∈ l, p = (none, none) ∨ ∃ lo hi, p = (some lo, some hi) ∧ lo ≤ hi) → rs.length ≤ l.length →
    (List.zipWith (fun (r : EclvOut) (l : Option ℚ × Option ℚ) => (⟨r, l.1, l.2⟩ : EclvBootOut)) rs l).map EclvBootOut.row = rs ∧
    ∀ b ∈ List.zipWith (fun (r : EclvOut) (l : Option ℚ × Option ℚ) => (⟨r, l.1, l.2⟩ : EclvBootOut)) rs l, LimitsOk b
  | [], _, _, _ => by simp
  | r :: rs, [], _, h => by simp at h
  | r :: rs, p :: l, hp, h => by
    obtain ⟨h1, h2⟩ := zipWith_rows rs l (fun q hq => hp q (List.mem_cons_of_mem _ hq)) (by simpa using h)
    rw [List.zipWith_cons_cons, List.map_cons, h1]
    refine ⟨rfl, ?_⟩
    intro b hb
    rcases List.mem_cons.mp hb with rfl | hb
    · rcases hp p List.mem_cons_self with rfl | ⟨lo, hi, rfl, hle⟩
      · exact .inl ⟨rfl, rfl⟩
      · exact .inr ⟨lo, hi, rfl, rfl, hle⟩
    · exact h2 b hb

/-- The rows of the table with resampling are those without, in order; their limits are absent or ordered. -/
def SameRows (bs : List EclvBootOut) (rs : List EclvOut) : Prop := bs.map EclvBootOut.row = rs ∧ ∀ b ∈ bs, LimitsOk b

theorem sameRows_flatten {bs : List (List EclvBootOut)} {rs : List (List EclvOut)} (h : List.Forall₂ SameRows bs rs) :
    SameRows bs.flatten rs.flatten := by
  induction h with
  | nil => exact ⟨rfl, by simp⟩
  | cons h _ ih =>
    unfold SameRows at *
    refine ⟨by rw [List.flatten_cons, List.flatten_cons, List.map_append, h.1, ih.1], ?_⟩
    intro b hb
    rw [List.flatten_cons, List.mem_append] at hb
    exact hb.elim (h.2 b) (ih.2 b)

theorem eclvInterval_length (dist : List (Option (List Cell))) (v : List Cell) (alpha : ℚ) (m : CiMethod)
    (l : List (Option ℚ × Option ℚ)) (h : eclvInterval dist (some v) alpha m = .ok (some l)) : l.length = v.length := by
  unfold eclvInterval at h
  simp only [bind, Except.bind] at h
  split at h
  · cases h
  · rename_i l' hl
    simp only [Except.ok.injEq, Option.some.injEq] at h
    subst h
    rw [mapM_ok_length _ _ _ hl, List.length_range]

theorem point_same (npf cbb : Bool) (m : CiMethod) (lineType : String) (cols : List String) (steps : List ℚ) (f : Frame)
    (names : List String) (draws : List String → ℚ → List (List ℕ)) (point : List String) (bs : List EclvBootOut)
    (h : eclvPointBoot npf cbb m lineType cols steps f names draws point = .ok bs) :
    ∃ rs, eclvPoint npf lineType cols steps f names point = .ok rs ∧ SameRows bs rs := by
  unfold eclvPointBoot at h
  unfold eclvPoint
  cases hr : eclvRows f (names.zip point) with
  | error e => rw [hr] at h; cases h
  | ok rows =>
    rw [hr] at h
    simp only [bind, Except.bind] at h ⊢
    by_cases he : rows.isEmpty
    · rw [if_pos he] at h ⊢
      by_cases ht : (eclvThresholds f rows).isEmpty
      · rw [if_pos ht] at h ⊢
        obtain rfl := Except.ok.inj h
        exact ⟨[], rfl, rfl, by simp⟩
      · rw [if_neg ht] at h; cases h
    · rw [if_neg he] at h ⊢
      cases hf : frameTable f cols rows with
      | error e => rw [hf] at h; cases h
      | ok t =>
        rw [hf] at h
        simp only at h ⊢
        split at h
        · cases h
        · rename_i parts hparts
          obtain rfl := Except.ok.inj h
          obtain ⟨cs, hcs, hR⟩ := mapM_relate _ (fun th => (match eclvStat npf t (some th) lineType steps (aggEclvAddBaseRate none) with
              | .error e => .error e
              | .ok none => .error .typeError
              | .ok (some e) => .ok (List.zipWith (fun x y => (⟨point, th, x, y, rows.length⟩ : EclvOut)) e.cl e.V) :
                Except PyErr (List EclvOut))) SameRows (by
            intro th b hb
            unfold eclvBootstrap at hb
            simp only [bind, Except.bind] at hb
            cases hs : eclvStat npf t (some th) lineType steps (aggEclvAddBaseRate none) with
            | error e => rw [hs] at hb; cases hb
            | ok s =>
              rw [hs] at hb
              simp only at hb
              split at hb
              · cases hb
              · rename_i p hp
                split at hp
                · cases hp
                · rename_i sims hsims
                  split at hp
                  · cases hp
                  · rename_i dist hdist
                    split at hp
                    · cases hp
                    · rename_i limits hlim
                      obtain rfl := Except.ok.inj hp
                      cases s with
                      | none => cases hb
                      | some e =>
                        cases limits with
                        | none => cases hb
                        | some l =>
                          obtain rfl := Except.ok.inj hb
                          refine ⟨_, rfl, ?_⟩
                          simp only [Option.map_some] at hlim
                          have hnone := eclvInterval_ordered dist _ (1 / 20) (by norm_num) (by norm_num) m l hlim
                          have hlen := eclvInterval_length _ _ _ _ _ hlim
                          rw [List.length_map] at hlen
                          apply zipWith_rows _ _ hnone
                          rw [List.length_zipWith, hlen]
                          exact min_le_right _ _) _ _ hparts
          refine ⟨cs.flatten, ?_, sameRows_flatten hR⟩
          have key : (eclvThresholds f rows).mapM (fun th => (do
              match ← eclvStat npf t (some th) lineType steps (aggEclvAddBaseRate none) with
              | none => .error .typeError
              | some e => .ok (List.zipWith (fun x y => (⟨point, th, x, y, rows.length⟩ : EclvOut)) e.cl e.V) :
                Except PyErr (List EclvOut))) = .ok cs := by
            rw [← hcs]
            congr 1
            funext th
            cases eclvStat npf t (some th) lineType steps (aggEclvAddBaseRate none) with
            | error e => rfl
            | ok o => cases o <;> rfl
          have : ((eclvThresholds f rows).mapM (fun th => (do
              match ← eclvStat npf t (some th) lineType steps (aggEclvAddBaseRate none) with
              | none => .error .typeError
              | some e => .ok (List.zipWith (fun x y => (⟨point, th, x, y, rows.length⟩ : EclvOut)) e.cl e.V) :
                Except PyErr (List EclvOut))) >>= fun parts => .ok parts.flatten) = .ok cs.flatten := by
            rw [key]
            rfl
          exact this

/-- C186: whatever positions are drawn, when the run with resampling succeeds so does the one without, and its table has the same rows
in the same order; the limits of a row are both absent, or both present and ordered. -/
theorem C186_same_curves (npf cbb : Bool) (m : CiMethod) (lineType : String) (step : ℚ) (series : List (String × List String)) (f : Frame)
    (draws : List String → ℚ → List (List ℕ)) (bs : List EclvBootOut)
    (h : aggEclvBoot npf cbb m lineType step series f draws = .ok bs) :
    ∃ rs, aggEclv npf lineType step series f = .ok rs ∧ bs.map EclvBootOut.row = rs ∧
      ∀ b ∈ bs, (b.lower = none ∧ b.upper = none) ∨ ∃ lo hi, b.lower = some lo ∧ b.upper = some hi ∧ lo ≤ hi := by
  unfold aggEclvBoot at h
  unfold aggEclv
  cases hs : clSteps step with
  | error e => rw [hs] at h; cases h
  | ok steps =>
    rw [hs] at h
    cases hc : eclvColumns lineType with
    | error e => rw [hc] at h; cases h
    | ok cols =>
      rw [hc] at h
      simp only [bind, Except.bind] at h ⊢
      by_cases he : f.isEmpty
      · rw [if_pos he] at h ⊢
        obtain rfl := Except.ok.inj h
        exact ⟨[], rfl, rfl, by simp⟩
      · rw [if_neg he] at h ⊢
        split at h
        · cases h
        · rename_i parts hparts
          obtain rfl := Except.ok.inj h
          obtain ⟨cs, hcs, hR⟩ := mapM_relate _ (eclvPoint npf lineType cols steps f (series.map Prod.fst)) SameRows
            (fun a b hab => point_same npf cbb m lineType cols steps f _ draws a b hab) _ _ hparts
          rw [hcs]
          exact ⟨cs.flatten, rfl, sameRows_flatten hR⟩

theorem mapM_ok_forall {α β : Type} (f : α → Except PyErr β) : ∀ (l : List α) (r : List β),
    l.mapM f = .ok r → ∀ x ∈ l, ∃ y, f x = .ok y
  | [], _, _, x, hx => by simp at hx
  | a :: l, r, h, x, hx => by
    rw [List.mapM_cons] at h
    cases ha : f a with
    | error e => rw [ha] at h; cases h
    | ok z =>
      cases hl : l.mapM f with
      | error e => rw [ha, hl] at h; cases h
      | ok zs =>
        rcases List.mem_cons.mp hx with rfl | hx
        · exact ⟨z, ha⟩
        · exact mapM_ok_forall f l zs hl x hx

/-- C186 (the limits): with the percentile method the limits at a cost/loss ratio are those of the values which the
resamples have there: absent where these agree, else their percentiles 2.5 and 97.5.  `curves` holds the curve of each
resample drawn from the rows. -/
theorem C186_limits (npf cbb : Bool) (lineType : String) (steps : List ℚ) (t : Table) (th : ℚ) (ids : List (List ℕ))
    (e : EconValue) (l : List (Option ℚ × Option ℚ))
    (h : eclvBootstrap npf cbb .perc lineType steps t th ids = .ok (some e, some l)) :
    ∃ (samples : List (List (List Cell))) (curves : List (Option EconValue)),
      generateDistributions t.rows (if cbb then Nat.sqrt t.rows.length else 1) ids = .ok samples ∧
      List.Forall₂ (fun rows c => eclvStat npf ⟨t.cols, rows⟩ (some th) lineType steps 0 = .ok c) samples curves ∧
      l.length = e.V.length ∧ ∀ i (hi : i < l.length),
        ((∀ x ∈ ratioColumn ((curves.filterMap id).map EconValue.V) i,
            ∀ y ∈ ratioColumn ((curves.filterMap id).map EconValue.V) i, x = y) → l[i] = (none, none)) ∧
        ((∃ x ∈ ratioColumn ((curves.filterMap id).map EconValue.V) i,
            ∃ y ∈ ratioColumn ((curves.filterMap id).map EconValue.V) i, x ≠ y) →
          ∃ lo up, l[i] = (some lo, some up) ∧
            percentile (ratioColumn ((curves.filterMap id).map EconValue.V) i) (1 / 40) = .ok lo ∧
            percentile (ratioColumn ((curves.filterMap id).map EconValue.V) i) (39 / 40) = .ok up) := by
  unfold eclvBootstrap at h
  simp only [bind, Except.bind] at h
  cases hs : eclvStat npf t (some th) lineType steps (aggEclvAddBaseRate none) with
  | error e => rw [hs] at h; cases h
  | ok s =>
    rw [hs] at h
    simp only at h
    split at h
    · cases h
    · rename_i sims hsims
      split at h
      · cases h
      · rename_i dist hdist
        split at h
        · cases h
        · rename_i limits hlim
          simp only [Except.ok.injEq, Prod.mk.injEq] at h
          obtain ⟨rfl, rfl⟩ := h
          simp only [Option.map_some] at hlim
          obtain ⟨curves, hc, hR⟩ := mapM_relate _ (fun rows => eclvStat npf ⟨t.cols, rows⟩ (some th) lineType steps 0)
            (fun d c => d = c.map fun e => e.V.map some) (by
              intro rows d hd
              cases hx : eclvStat npf ⟨t.cols, rows⟩ (some th) lineType steps 0 with
              | error e => rw [hx] at hd; cases hd
              | ok c => rw [hx] at hd; exact ⟨c, rfl, (Except.ok.inj hd).symm⟩) _ _ hdist
          have hdc : dist = (curves.map fun c => c.map EconValue.V).map fun r => r.map fun r => r.map some := by
            clear hc hdist hlim
            induction hR with
            | nil => rfl
            | cons h _ ih => simp only [List.map_cons, ih, h, Option.map_map]; rfl
          have hfc : (curves.map fun c => c.map EconValue.V).filterMap id = (curves.filterMap id).map EconValue.V := by
            rw [List.filterMap_map, List.map_filterMap]
            congr 1
          have hF : List.Forall₂ (fun rows c => eclvStat npf ⟨t.cols, rows⟩ (some th) lineType steps 0 = .ok c) sims curves := by
            clear hR hdist hdc hfc hsims
            induction sims generalizing curves with
            | nil => obtain rfl := Except.ok.inj hc; exact .nil
            | cons rows sims ih =>
              rw [List.mapM_cons] at hc
              cases hx : eclvStat npf ⟨t.cols, rows⟩ (some th) lineType steps 0 with
              | error e => rw [hx] at hc; cases hc
              | ok c =>
                cases hy : sims.mapM (fun rows => eclvStat npf ⟨t.cols, rows⟩ (some th) lineType steps 0) with
                | error e => rw [hx, hy] at hc; cases hc
                | ok cs =>
                  rw [hx, hy] at hc
                  obtain rfl := Except.ok.inj hc
                  exact .cons hx (ih cs hy)
          have hlen := eclvInterval_length _ _ _ _ _ hlim
          rw [List.length_map] at hlen
          refine ⟨sims, curves, hsims, hF, hlen, ?_⟩
          by_cases hv : e.V = []
          · intro i hi
            rw [hlen, hv] at hi
            simp at hi
          · have hcol : ∀ i < e.V.length, ∃ c, eclvColumn (dist.filterMap id) i = .ok c := by
              intro i hi
              have hlim' := hlim
              unfold eclvInterval at hlim'
              simp only [bind, Except.bind] at hlim'
              split at hlim'
              · cases hlim'
              · rename_i l' hl'
                obtain ⟨y, hy⟩ := mapM_ok_forall _ _ _ hl' i (by simpa using hi)
                cases hcc : eclvColumn (dist.filterMap id) i with
                | error e => rw [hcc] at hy; cases hy
                | ok c => exact ⟨c, rfl⟩
            have hfd : dist.filterMap id = ((curves.filterMap id).map EconValue.V).map fun r => r.map some := by
              rw [← hfc, hdc, List.filterMap_map, List.map_filterMap]
              congr 1
            have hne : (curves.filterMap id).map EconValue.V ≠ [] := by
              intro hn
              obtain ⟨c, hc⟩ := hcol 0 (List.length_pos_iff.mpr hv)
              rw [hfd, hn] at hc
              cases hc
            have hle : ∀ r ∈ (curves.filterMap id).map EconValue.V, e.V.length ≤ r.length := by
              intro r hr
              by_contra hlt
              push Not at hlt
              obtain ⟨c, hc⟩ := hcol r.length hlt
              rw [hfd] at hc
              generalize (curves.filterMap id).map EconValue.V = reps at hr hc
              have hnone : (reps.map fun r => r.map (some : ℚ → Cell)).mapM (fun q => q[r.length]?) = none := by
                clear hc
                induction reps with
                | nil => simp at hr
                | cons q qs ih =>
                  rw [List.map_cons, List.mapM_cons]
                  rcases List.mem_cons.mp hr with rfl | hr
                  · simp
                  · rw [ih hr]
                    cases (q.map (some : ℚ → Cell))[r.length]? <;> rfl
              cases reps with
              | nil => simp at hr
              | cons q qs =>
                unfold eclvColumn at hc
                rw [hnone] at hc
                cases hc
            obtain ⟨l', h1, h2, h3⟩ := C32_limits_partial (curves.map fun c => c.map EconValue.V) (e.V.map some) (1 / 20)
              (by norm_num) (by norm_num) (by rw [hfc]; exact hne) (by rw [hfc]; simpa using hle)
            rw [← hdc, hlim] at h1
            simp only [Except.ok.injEq, Option.some.injEq] at h1
            subst h1
            intro i hi
            obtain ⟨g1, g2⟩ := h3 i hi
            rw [hfc] at g1 g2
            refine ⟨g2, fun hx => ?_⟩
            obtain ⟨lo, up, q1, q2, q3, q4, -⟩ := g1 hx
            norm_num at q3 q4
            exact ⟨lo, up, q1, q3, q4⟩

/-! ### A concrete run -/

theorem curveB : ∃ e, economicValue [3, 2, 1, 4] [1 / 2] false = some e ∧ e.V = [1 / 4] ∧ e.cl = [1 / 2] := by
  unfold economicValue
  simp only [Bool.false_eq_true, if_false, List.mergeSort_singleton]
  norm_num [pyDiv, econPoint]

/-- The counts of model B of `eclvExample`. -/
def rowB : List Cell := [some 10, some 3, some 2, some 1, some 4]

/-- A run with resampling that succeeds (the hypothesis of `C186_same_curves`): model B, ratio 1/2, two resamples. -/
theorem eclvBoot_run : aggEclvBoot false false .perc "ctc" (1 / 2) [("model", ["B"])] eclvExample (fun _ _ => [[0], [0]]) =
    .ok [⟨⟨["B"], 0, 1 / 2, 1 / 4, 1⟩, none, none⟩] := by
  obtain ⟨e, he, hV, hcl⟩ := curveB
  have h1 : clSteps (1 / 2) = .ok [1 / 2] := by decide +kernel
  have h2 : eclvRows eclvExample [("model", "B")] =
      .ok [[.str "B", .num 10 "10", .num 3 "3", .num 2 "2", .num 1 "1", .num 4 "4"]] := by decide +kernel
  have hs : eclvStat false ⟨["total", "fy_oy", "fy_on", "fn_oy", "fn_on"], [rowB]⟩ (some 0) "ctc" [1 / 2] 0 = .ok (some e) := by
    have e1 : sumColumn ⟨["total", "fy_oy", "fy_on", "fn_oy", "fn_on"], [rowB]⟩ "fy_oy" = some 3 := by decide +kernel
    have e2 : sumColumn ⟨["total", "fy_oy", "fy_on", "fn_oy", "fn_on"], [rowB]⟩ "fy_on" = some 2 := by decide +kernel
    have e3 : sumColumn ⟨["total", "fy_oy", "fy_on", "fn_oy", "fn_on"], [rowB]⟩ "fn_oy" = some 1 := by decide +kernel
    have e4 : sumColumn ⟨["total", "fy_oy", "fy_on", "fn_oy", "fn_on"], [rowB]⟩ "fn_on" = some 4 := by decide +kernel
    have e5 : (decide ((0 : ℤ) = 1)) = false := by decide
    unfold eclvStat
    rw [if_neg (by decide), if_neg (by decide), if_neg (by decide), e1, e2, e3, e4]
    simp only [bind, Option.bind_some, e5]
    rw [he]
  have hb : eclvBootstrap false false .perc "ctc" [1 / 2] ⟨["total", "fy_oy", "fy_on", "fn_oy", "fn_on"], [rowB]⟩ 0 [[0], [0]] =
      .ok (some e, some [(none, none)]) := by
    have hg : generateDistributions [rowB] 1 [[0], [0]] = .ok [[rowB], [rowB]] := by decide +kernel
    have hr : eclvReplicates false "ctc" ["total", "fy_oy", "fy_on", "fn_oy", "fn_on"] [1 / 2] 0 [[rowB], [rowB]] =
        .ok [some [some (1 / 4)], some [some (1 / 4)]] := by
      unfold eclvReplicates
      simp only [List.mapM_cons, List.mapM_nil, hs, bind, Except.bind, Option.map_some, hV]
      rfl
    unfold eclvBootstrap
    have hz : aggEclvAddBaseRate none = 0 := by decide
    simp only [Bool.false_eq_true, if_false, hz, hs, hg, hr, bind, Except.bind, Option.map_some, hV]
    have : eclvInterval [some [some (1 / 4)], some [some (1 / 4)]] (some (List.map some [1 / 4])) (1 / 20) .perc =
      .ok (some [(none, none)]) := by decide +kernel
    rw [this]
  have hf : frameTable eclvExample ["total", "fy_oy", "fy_on", "fn_oy", "fn_on"]
      [[.str "B", .num 10 "10", .num 3 "3", .num 2 "2", .num 1 "1", .num 4 "4"]] =
      .ok ⟨["total", "fy_oy", "fy_on", "fn_oy", "fn_on"], [rowB]⟩ := rfl
  have ht : eclvThresholds eclvExample [[.str "B", .num 10 "10", .num 3 "3", .num 2 "2", .num 1 "1", .num 4 "4"]] = [0] := by
    decide +kernel
  have hp : eclvPointBoot false false .perc "ctc" ["total", "fy_oy", "fy_on", "fn_oy", "fn_on"] [1 / 2] eclvExample ["model"]
      (fun _ _ => [[0], [0]]) ["B"] = .ok [⟨⟨["B"], 0, 1 / 2, 1 / 4, 1⟩, none, none⟩] := by
    unfold eclvPointBoot
    simp only [List.zip_cons_cons, List.zip_nil_right, h2, ht, hf, bind, Except.bind, List.mapM_cons, List.mapM_nil, hb, hV, hcl]
    rfl
  unfold aggEclvBoot
  rw [h1]
  have hc : eclvColumns "ctc" = .ok ["total", "fy_oy", "fy_on", "fn_oy", "fn_on"] := rfl
  rw [hc]
  have hpr : product [["B"]] = [["B"]] := by decide
  have hne : eclvExample.isEmpty = false := by decide
  simp only [bind, Except.bind, List.map_cons, List.map_nil, hpr, hne, Bool.false_eq_true, if_false, List.mapM_cons,
    List.mapM_nil, hp]
  rfl

/-- Two different rows; one resample draws each of them twice, so the curves differ and there are limits
(the hypothesis of `C186_limits`). -/
theorem eclvBoot_differ : ∃ e, eclvBootstrap false false .perc "ctc" [1 / 2]
    ⟨["total", "fy_oy", "fy_on", "fn_oy", "fn_on"], [rowB, [some 10, some 4, some 1, some 1, some 4]]⟩ 0 [[0, 0], [1, 1]] =
      .ok (some e, some [(some (207 / 800), some (473 / 800))]) := by
  have hc : ∀ a b c d : ℚ, ∀ rows : List (List Cell), ∀ v : ℚ,
      sumColumn ⟨["total", "fy_oy", "fy_on", "fn_oy", "fn_on"], rows⟩ "fy_oy" = some a →
      sumColumn ⟨["total", "fy_oy", "fy_on", "fn_oy", "fn_on"], rows⟩ "fy_on" = some b →
      sumColumn ⟨["total", "fy_oy", "fy_on", "fn_oy", "fn_on"], rows⟩ "fn_oy" = some c →
      sumColumn ⟨["total", "fy_oy", "fy_on", "fn_oy", "fn_on"], rows⟩ "fn_on" = some d →
      (∃ e, economicValue [a, b, c, d] [1 / 2] false = some e ∧ e.V = [v]) →
      ∃ e, eclvStat false ⟨["total", "fy_oy", "fy_on", "fn_oy", "fn_on"], rows⟩ (some 0) "ctc" [1 / 2] 0 = .ok (some e) ∧ e.V = [v] := by
    intro a b c d rows v e1 e2 e3 e4 ⟨e, he, hv⟩
    refine ⟨e, ?_, hv⟩
    have e5 : (decide ((0 : ℤ) = 1)) = false := by decide
    unfold eclvStat
    rw [if_neg (by decide), if_neg (by decide), if_neg (by decide), e1, e2, e3, e4]
    simp only [bind, Option.bind_some, e5]
    rw [he]
  obtain ⟨e, h1, h2⟩ := hc 7 3 2 8 [rowB, [some 10, some 4, some 1, some 1, some 4]] (4 / 9) (by decide +kernel) (by decide +kernel)
    (by decide +kernel) (by decide +kernel) (by
      unfold economicValue
      simp only [Bool.false_eq_true, if_false, List.mergeSort_singleton]
      norm_num [pyDiv, econPoint])
  obtain ⟨f, h3, h4⟩ := hc 6 4 2 8 [rowB, rowB] (1 / 4) (by decide +kernel) (by decide +kernel)
    (by decide +kernel) (by decide +kernel) (by
      unfold economicValue
      simp only [Bool.false_eq_true, if_false, List.mergeSort_singleton]
      norm_num [pyDiv, econPoint])
  obtain ⟨g, h5, h6⟩ := hc 8 2 2 8 [[some 10, some 4, some 1, some 1, some 4], [some 10, some 4, some 1, some 1, some 4]] (3 / 5)
    (by decide +kernel) (by decide +kernel) (by decide +kernel) (by decide +kernel) (by
      unfold economicValue
      simp only [Bool.false_eq_true, if_false, List.mergeSort_singleton]
      norm_num [pyDiv, econPoint])
  refine ⟨e, ?_⟩
  have hg : generateDistributions [rowB, [some 10, some 4, some 1, some 1, some 4]] 1 [[0, 0], [1, 1]] =
    .ok [[rowB, rowB], [[some 10, some 4, some 1, some 1, some 4], [some 10, some 4, some 1, some 1, some 4]]] := by decide +kernel
  have hz : aggEclvAddBaseRate none = 0 := by decide
  unfold eclvBootstrap
  simp only [Bool.false_eq_true, if_false, hz, h1, hg, eclvReplicates, List.mapM_cons, List.mapM_nil, h3, h5, bind, Except.bind,
    pure, Except.pure, Option.map_some, h2, h4, h6]
  have : eclvInterval [some (List.map some [1 / 4]), some (List.map some [3 / 5])] (some (List.map some [4 / 9])) (1 / 20) .perc =
    .ok (some [(some (207 / 800), some (473 / 800))]) := by decide +kernel
  rw [this]

end Metcalcpy.Props
