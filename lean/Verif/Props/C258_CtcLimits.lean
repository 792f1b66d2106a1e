/-
C258: bootstrap limits of tables made from any kind of lines, in particular of contingency counts.
-/
import Verif.Props.C258_BootLimits
import Verif.Props.C205_MoreScores

namespace Metcalcpy.Props

open Metcalcpy Spec

variable {f : Frame} {p : AggParams} {init : List (String × List String)} {sv : String × List String}
  {parts : String → List String} {fix : List (String × List String)} {fv : String} {sts : List String}
  {rest : List (String × List String)}

/-- C258, for any line type whose scores `P` describes (for any set of lines, whatever their order): the value of a row is the
score of the lines of the cases common to all series, every replicate the score of as many of these lines drawn
with repetition, and the limits are those of `confidenceInterval` for the replicates with alpha = 0.05. -/
theorem boot_scores (statOf : String → List (List Val) → Except PyErr PyNum) (P : String → List (List Val) → PyNum → Prop)
    (etb : List PyNum → List PyNum → PyNum) (s : BootSettings) (draws₁ draws₂ : ℕ → ℕ → List (List ℕ)) (k : ℕ)
    (hdraw : ∀ i n, IndexMatrix n k (draws₁ i n)) (hm : s.method ≠ .other) (out : List BootOut)
    (R : OneAxisRun f p init sv parts fix fv sts rest) (key : List Val → String)
    (hkey : ∀ r ∈ f.rows, IsCaseKey f p.indyVar true r (key r))
    (hperm : ∀ s l l' v, l.Perm l' → P s l v → P s l' v) (hnan : ∀ s l, statOf s l ≠ .ok .nan)
    (hP : ∀ st ∈ p.axis₁.stats, ∀ zs v, zs ≠ [] → (∀ r ∈ zs, r ∈ f.rows) → statOf (lower st) zs = .ok v → P (lower st) zs v)
    (hk : ∀ st ∈ p.axis₁.stats, ∀ zs, zs ≠ [] → (∀ r ∈ zs, r ∈ f.rows) → statOf (lower st) zs ≠ .error .keyError)
    (h : bootRun statOf etb s draws₁ draws₂ f p = .ok out) (hne : out ≠ []) :
    ∃ plain derived, out = plain ++ derived ∧
      (∀ pt, pt ∈ plain.map BootOut.point ↔
        ∃ as, List.Forall₂ (fun x q => x ∈ q.2) as (init ++ [sv]) ∧ ∃ i ∈ p.indyVals, ∃ st ∈ p.axis₁.stats,
          pt = as ++ [i, st]) ∧
      ∀ (n : ℕ) (o : BootOut), plain[n]? = some o → ∀ as i st, o.point = as ++ [i, st] →
        ∀ rows, rows = comparedRows f (init ++ [sv]) parts fix fv p.indyVar key as i st →
          o.nstats = rows.length ∧ (rows = [] → o.value = .none ∧ o.lower = none ∧ o.upper = none) ∧
          (rows ≠ [] → P (lower st) rows o.value ∧
            ∃ (sims : List (List (List Val))) (dist : List PyNum), sims.length = k ∧
              (∀ zs ∈ sims, zs.length = rows.length ∧ ∀ r ∈ zs, r ∈ rows) ∧
              List.Forall₂ (fun zs z => P (lower st) zs z) sims dist ∧
              confidenceInterval (dist.map PyNum.cell) o.value.cell (1 / 20) s.method = .ok ⟨o.lower, o.value.cell, o.upper⟩) := by
  have hrv := requested_eq R
  have hg := equalize_ok R key hkey
  generalize hG : (p.axis₁.fcstVarVal.flatMap (fun q => q.2.map (fun s => (q.1, s)))).flatMap
      (keptRows f sv ((init ++ [sv]).map (fun x => (x.1, x.2.flatMap parts)) ++ fix) key) = G at hg
  have hsub : ∀ r ∈ G, r ∈ f.rows := by
    intro r hr
    rw [← hG] at hr
    unfold keptRows at hr
    simp only [List.mem_flatMap, List.mem_filter] at hr
    obtain ⟨_, _, h3⟩ := hr
    exact h3.1.1
  unfold bootRun at h
  rw [R.on, R.second] at h
  have ht : truthy (parseBool "True") = true := rfl
  rw [ht, if_pos rfl, hg] at h
  simp only [bind, Except.bind, List.isEmpty_nil, if_true] at h
  obtain ⟨o₁, ho, e⟩ : ∃ o₁, bootAxis statOf etb s draws₁ ⟨f.cols, G⟩ (p.config p.axis₁) = .ok o₁ ∧
      o₁ = out := by
    split at h
    · simp at h
    · next o₁ ho => exact ⟨o₁, ho, by simpa using h⟩
  subst e
  have hGe : G ≠ [] := by
    rintro rfl
    unfold bootAxis at ho
    rw [if_pos (by simp [Frame.isEmpty])] at ho
    exact hne (by simpa using ho.symm)
  obtain ⟨hreq, hpl⟩ := run_request R hsub
  obtain ⟨plain, derived, e, hpts, -, hrows⟩ := C258_rows_partial hreq _ etb s draws₁ k
    ⟨hGe, List.ne_nil_of_mem R.forecast⟩ (fun st hst zs z1 z2 => hk st hst zs z1 (fun r hr => hsub r (z2 r hr))) hdraw hpl o₁ ho
  have hpts' : ∀ pt, pt ∈ plain.map BootOut.point ↔
      ∃ as, List.Forall₂ (fun x q => x ∈ q.2) as (init ++ [sv]) ∧ ∃ i ∈ p.indyVals, ∃ st ∈ p.axis₁.stats,
        pt = as ++ [i, st] := by
    intro pt
    rw [hpts, hrv]
    constructor
    · intro h
      obtain ⟨l₁, st, rfl, h1, hst⟩ := forall₂_snoc h
      obtain ⟨as, i, rfl, h2, hi⟩ := forall₂_snoc h1
      exact ⟨as, h2, i, hi, st, hst, by simp⟩
    · rintro ⟨as, ha, i, hi, st, hs, rfl⟩
      have : as ++ [i, st] = as ++ [i] ++ [st] := by simp
      rw [this]
      exact List.rel_append (List.rel_append ha (.cons hi .nil)) (.cons hs .nil)
  refine ⟨plain, derived, e, hpts', ?_⟩
  intro n o ho' as i st hpt rows hr
  obtain ⟨as', ha, i', hi, st', hst, e'⟩ := (hpts' o.point).mp (List.mem_map_of_mem (List.mem_of_getElem? ho'))
  rw [hpt] at e'
  obtain ⟨rfl, e4⟩ := List.append_inj' e' (by simp)
  simp only [List.cons.injEq, and_true] at e4
  obtain ⟨rfl, rfl⟩ := e4
  obtain ⟨as, a, rfl, h2, ha⟩ := forall₂_snoc ha
  have heq := equalized_point R key as a i st h2.length_eq ha hst
  rw [hG] at heq
  have hhead : (p.config p.axis₁).fcstVars.head? = some fv := by simp [AggParams.config, R.fcst]
  have hsr : ∀ r ∈ rows, r ∈ f.rows := by rw [hr]; exact comparedRows_sub
  obtain ⟨-, h1, h2', h3⟩ := hrows n o ho' rows (by
    rw [hr, hrv, hpt, hhead]
    unfold comparedRows
    rw [← heq]
    have hz : ((init ++ [sv] ++ [(p.indyVar, p.indyVals)] ++ [("stat_name", p.axis₁.stats)]).map Prod.fst).zip
        (as ++ [a] ++ [i, st]) = pointRequest (init ++ [sv]) p.indyVar (as ++ [a]) i st := by
      unfold pointRequest
      rw [List.append_assoc, List.map_append, List.zip_append (by simp [h2.length_eq])]
      rfl
    rw [hz]
    rfl)
  refine ⟨h1, h2', fun hrne => ?_⟩
  obtain ⟨st', hl, a', hp, -, w, dist, x, hw, hov, hx, hf, hc⟩ := h3 hrne
  rw [hpt] at hl
  simp only [List.getLast?_append, List.getLast?_cons_cons, List.getLast?_singleton, Option.some.injEq,
    Option.or_some, Option.some_or] at hl
  subst hl
  have hane : a' ≠ [] := by rintro rfl; exact hrne (List.nil_perm.mp hp)
  have hx' := hx hm
  subst hx'
  have hw' : o.value = w := by
    rw [hov]
    cases w with
    | none => rfl
    | nan => exact absurd hw (hnan _ _)
    | num q => rfl
  have hm' : IndexMatrix a'.length k (draws₁ n rows.length) := by rw [hp.length_eq]; exact hdraw _ _
  refine ⟨hperm _ _ _ _ hp (by
      rw [hw']
      exact hP st hst a' w hane (fun r hr => hsr r (hp.mem_iff.mp hr)) hw),
    (draws₁ n rows.length).map (fun row => pick a' (positionsUsed (if s.cbb then Nat.sqrt rows.length else 1) row)), dist, ?_⟩
  have hsim : ∀ row ∈ draws₁ n rows.length,
      (pick a' (positionsUsed (if s.cbb then Nat.sqrt rows.length else 1) row)).length = rows.length ∧
      ∀ r ∈ pick a' (positionsUsed (if s.cbb then Nat.sqrt rows.length else 1) row), r ∈ rows := by
    intro row hrow
    exact ⟨by rw [pick_length (hm'.2 row hrow).1 (hm'.2 row hrow).2, hp.length_eq],
      fun r hr => hp.mem_iff.mp (pick_mem hr)⟩
  refine ⟨by rw [List.length_map]; exact hm'.1, ?_, ?_, ?_⟩
  · intro zs hz
    obtain ⟨row, hrow, rfl⟩ := List.mem_map.mp hz
    exact hsim row hrow
  · rw [List.forall₂_map_left_iff]
    have hne' : ∀ row ∈ draws₁ n rows.length,
        pick a' (positionsUsed (if s.cbb then Nat.sqrt rows.length else 1) row) ≠ [] :=
      fun row hrow => pick_ne hane _ (hm'.2 row hrow).1 (hm'.2 row hrow).2
    clear hm' hc
    generalize draws₁ n rows.length = ids at hf hsim hne'
    induction hf with
    | nil => exact .nil
    | @cons row z _ _ h1 _ ih =>
      exact .cons (hP st hst _ z (hne' row (by simp)) (fun r hr => hsr r ((hsim row (by simp)).2 r hr)) h1)
        (ih (fun r hr => hsim r (by simp [hr])) (fun r hr => hne' r (by simp [hr])))
  · rw [hw']; exact hc

theorem prepared_not_nan (l : LineType) (f : Frame) (s : String) (zs : List (List Val)) : preparedStat l f s zs ≠ .ok .nan := by
  intro h
  unfold preparedStat at h
  simp only [bind, Except.bind] at h
  split at h
  · cases h
  · split at h
    · cases h
    · next c _ =>
      revert h
      cases c _ with
      | error e => intro h; cases h
      | ok x => cases x <;> intro h <;> simp [Except.map, toPyNum] at h

theorem prepared_ctc {f : Frame} {s : String} {data : List (List Val)} {v : PyNum}
    {calculate : Table → Except PyErr (Option ℚ)} {x : Option ℚ}
    (hl : calculateFunctions.lookup s = some calculate) (hx : calculate (numericTable f.cols data) = .ok x)
    (h : preparedStat .ctc f s data = .ok v) : v = toPyNum x := by
  unfold preparedStat at h
  simp only [bind, Except.bind, prepareLine, hl] at h
  cases hp : ecCheck (numericTable f.cols data) with
  | error e => rw [hp] at h; cases h
  | ok u =>
    rw [hp] at h
    simp only [hx, Except.map, Except.ok.injEq] at h
    exact h.symm

/-- The value of CTC lines in any order, with repetitions. -/
theorem prepared_counts {f : Frame} {counts : List Val → Ctc} (L : CtcLines f counts) {zs : List (List Val)}
    (hne : zs ≠ []) (hsub : ∀ r ∈ zs, r ∈ f.rows) {s : String} {v : PyNum}
    (h : preparedStat .ctc f s zs = .ok v) : CountScore s (pooledCounts (zs.map counts)) v := by
  have D := ctc_table L hne hsub
  obtain ⟨r1, r2, r3, r4, r5, r6, r7, r8, r9, r10, -, -⟩ := C10_ratio_scores D
  obtain ⟨-, r11⟩ := C10_skill_scores D
  unfold pooledCounts
  simp only [List.map_map, Function.comp_def]
  refine ⟨?_, ?_, ?_, ?_, ?_, ?_, ?_, ?_, ?_, ?_, ?_, ?_⟩ <;> rintro rfl
  · rw [prepared_ctc rfl r1 h]; exact ratioIs_rounded _
  · rw [prepared_ctc rfl rfl h, r2]; exact ratioIs_rounded _
  · rw [prepared_ctc rfl rfl h, r3]; exact ratioIs_rounded _
  · rw [prepared_ctc rfl rfl h, r4]; exact ratioIs_rounded _
  · rw [prepared_ctc rfl rfl h, r5]; exact ratioIs_rounded _
  · rw [prepared_ctc rfl rfl h, r6]; exact ratioIs_rounded _
  · rw [prepared_ctc rfl rfl h, r7]; exact ratioIs_rounded _
  · rw [prepared_ctc rfl rfl h, r8]; exact ratioIs_rounded _
  · rw [prepared_ctc rfl rfl h, r9]; exact ratioIs_rounded _
  · rw [prepared_ctc rfl rfl h, r10]; exact ratioIs_rounded _
  · intro h0; rw [prepared_ctc rfl rfl h, (r11 h0).1]; exact ratioIs_rounded _
  · intro h0; rw [prepared_ctc rfl rfl h, (r11 h0).2]; exact ratioIs_rounded _

theorem prepared_composed {f : Frame} {counts : List Val → Ctc} (L : CtcLines f counts) {zs : List (List Val)}
    (hne : zs ≠ []) (hsub : ∀ r ∈ zs, r ∈ f.rows) {s : String} {v : PyNum}
    (h : preparedStat .ctc f s zs = .ok v) : ComposedScore s (pooledCounts (zs.map counts)) v := by
  obtain ⟨c1, c2⟩ := C10_composed_scores (ctc_table L hne hsub)
  unfold pooledCounts
  simp only [List.map_map, Function.comp_def]
  constructor
  · intro hm h0
    obtain ⟨d1, d2, d3⟩ := c1 h0
    simp only [List.mem_cons, List.not_mem_nil, or_false] at hm
    rcases hm with rfl | rfl | rfl
    · rw [prepared_ctc rfl rfl h, d1]; rfl
    · rw [prepared_ctc rfl rfl h, d2]; rfl
    · rw [prepared_ctc rfl rfl h, d3]; rfl
  · rintro h1 h2 a b rfl rfl
    simp only at h1 h2 ⊢
    obtain ⟨d1, d2, d3⟩ := c2 _ _ (by unfold Ratio.rounded podyRatio; exact if_neg h1) (by
      unfold Ratio.rounded pofdRatio; exact if_neg h2)
    refine ⟨?_, ?_, ?_⟩ <;> rintro rfl
    · rw [prepared_ctc rfl rfl h, d1]; rfl
    · rw [prepared_ctc rfl rfl h, d2]; exact ratioIs_rounded _
    · rw [prepared_ctc rfl rfl h, d3]; split <;> rfl

theorem prepared_no_keyError {f : Frame} {counts : List Val → Ctc} (L : CtcLines f counts) {zs : List (List Val)}
    (hne : zs ≠ []) (hsub : ∀ r ∈ zs, r ∈ f.rows) {s : String}
    (hs : s ∈ ["baser", "acc", "fbias", "fmean", "pody", "pofd", "podn", "far", "csi", "orss", "gss", "hss", "hk", "odds", "odds1"]) :
    preparedStat .ctc f s zs ≠ .error .keyError := by
  obtain ⟨r1, -⟩ := C10_ratio_scores (ctc_table L hne hsub)
  intro h
  unfold preparedStat at h
  simp only [bind, Except.bind, prepareLine] at h
  have hec : ecCheck (numericTable f.cols zs) ≠ .error .keyError := by
    unfold ecCheck
    split
    · simp
    · next h0 =>
      cases zs with
      | nil => exact absurd rfl hne
      | cons r zs =>
        unfold columnData at h0
        split at h0
        · cases h0
        · simp [numericTable, List.mapM_cons, Option.bind_eq_some_iff] at h0
    · split <;> simp
  cases hp : ecCheck (numericTable f.cols zs) with
  | error e =>
    rw [hp] at h hec
    simp only [Except.error.injEq] at h
    exact hec (by rw [h])
  | ok u =>
    rw [hp] at h
    simp only [List.mem_cons, List.not_mem_nil, or_false] at hs
    rcases hs with rfl | rfl | rfl | rfl | rfl | rfl | rfl | rfl | rfl | rfl | rfl | rfl | rfl | rfl | rfl <;>
      simp [calculateFunctions, List.lookup, r1, Except.map] at h

theorem pooledCounts_perm {l l' : List Ctc} (h : l.Perm l') : pooledCounts l = pooledCounts l' := by
  unfold pooledCounts
  rw [(h.map _).sum_eq, (h.map _).sum_eq, (h.map _).sum_eq, (h.map _).sum_eq, (h.map _).sum_eq]

/-- C258, for a run on CTC lines with event equalization and bootstrapping: the value of a row is the score of the summed
counts of the cases common to all series, every replicate the score of the summed counts of as many of these lines drawn with
repetition (missing where a denominator is zero), and the limits are the 2.5 and 97.5 percentiles (or their mirror
images) of the replicates that have a value. -/
theorem C258_ctc (etb : List PyNum → List PyNum → PyNum) (s : BootSettings) (draws₁ draws₂ : ℕ → ℕ → List (List ℕ)) (k : ℕ)
    (hdraw : ∀ i n, IndexMatrix n k (draws₁ i n)) (hm : s.method ≠ .other) (out : List BootOut)
    (R : OneAxisRun f p init sv parts fix fv sts rest) (key : List Val → String)
    (hkey : ∀ r ∈ f.rows, IsCaseKey f p.indyVar true r (key r)) (counts : List Val → Ctc) (L : CtcLines f counts)
    (hs : ∀ st ∈ p.axis₁.stats, lower st ∈ ["baser", "acc", "fbias", "fmean", "pody", "pofd", "podn", "far", "csi", "orss", "gss",
      "hss", "hk", "odds", "odds1"])
    (h : bootRun (preparedStat .ctc f) etb s draws₁ draws₂ f p = .ok out) (hne : out ≠ []) :
    ∃ plain derived, out = plain ++ derived ∧
      (∀ pt, pt ∈ plain.map BootOut.point ↔
        ∃ as, List.Forall₂ (fun x q => x ∈ q.2) as (init ++ [sv]) ∧ ∃ i ∈ p.indyVals, ∃ st ∈ p.axis₁.stats,
          pt = as ++ [i, st]) ∧
      ∀ (n : ℕ) (o : BootOut), plain[n]? = some o → ∀ as i st, o.point = as ++ [i, st] →
        ∀ rows, rows = comparedRows f (init ++ [sv]) parts fix fv p.indyVar key as i st →
          o.nstats = rows.length ∧ (rows = [] → o.value = .none ∧ o.lower = none ∧ o.upper = none) ∧
          (rows ≠ [] → ∀ score, (score = fun (zs : List (List Val)) (v : PyNum) =>
              CountScore (lower st) (pooledCounts (zs.map counts)) v ∧ ComposedScore (lower st) (pooledCounts (zs.map counts)) v) →
            score rows o.value ∧
            ∃ (sims : List (List (List Val))) (dist : List PyNum), sims.length = k ∧
              (∀ zs ∈ sims, zs.length = rows.length ∧ ∀ r ∈ zs, r ∈ rows) ∧ List.Forall₂ score sims dist ∧
              confidenceInterval (dist.map PyNum.cell) o.value.cell (1 / 20) s.method = .ok ⟨o.lower, o.value.cell, o.upper⟩) := by
  obtain ⟨plain, derived, e, hpts, hrows⟩ := boot_scores (preparedStat .ctc f)
    (fun s zs v => CountScore s (pooledCounts (zs.map counts)) v ∧ ComposedScore s (pooledCounts (zs.map counts)) v)
    etb s draws₁ draws₂ k hdraw hm out R key hkey
    (fun s l l' v hp hv => by rw [pooledCounts_perm (hp.map counts)] at hv; exact hv) (prepared_not_nan _ _)
    (fun st _ zs v z1 z2 hv => ⟨prepared_counts L z1 z2 hv, prepared_composed L z1 z2 hv⟩)
    (fun st hst zs z1 z2 => prepared_no_keyError L z1 z2 (hs st hst)) h hne
  refine ⟨plain, derived, e, hpts, ?_⟩
  intro n o ho as i st hpt rows hr
  obtain ⟨h1, h2, h3⟩ := hrows n o ho as i st hpt rows hr
  exact ⟨h1, h2, fun hne score hsc => by subst hsc; exact h3 hne⟩

/-! ### Example -/

theorem exCtc_boot : bootRun (preparedStat .ctc (exCtcFrame (1/2))) (fun _ _ => .none) ⟨1 / 2, .perc, false⟩ threeDraws threeDraws
    (exCtcFrame (1/2)) exCtcParams = .ok
    [⟨["A", "6", "CSI"], some "TMP", .num (1/2), none, none, 2⟩, ⟨["B", "6", "CSI"], some "TMP", .num (1/10), some (1/200), some (32666673/200000000), 2⟩] := by
  decide +kernel

example := C258_ctc (fun _ _ => .none) ⟨1 / 2, .perc, false⟩ threeDraws threeDraws 3 threeDraws_ok (by decide) _ exCtc_input
  exRunKey exCtc_key exCounts exCtc_lines (by decide +kernel) exCtc_boot (by simp)

end Metcalcpy.Props
