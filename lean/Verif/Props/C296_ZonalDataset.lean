/-
C296  The zonal mean data set has all diagnostics its variables allow, and no others.
C297  Eddy fluxes are covariances along the circle of latitude.
-/
import Verif.Model.ZonalDataset
import Mathlib.Tactic.Linarith
import Mathlib.Tactic.FieldSimp
import Mathlib.Tactic.Ring

namespace Metcalcpy.Props
open Metcalcpy

/-- The diagnostics that are possible with the variables of a set: zonal means, eddy fluxes of the pairs present, with waves the fluxes
of the waves and the coefficients of temperature and height. -/
def possibleDiagnostics (has : String → Bool) (waves : Bool) : List String :=
  (if has "u" then ["u"] else []) ++ (if has "v" then ["v"] else []) ++ (if has "w" then ["w"] else []) ++
  (if has "T" then ["T"] else []) ++ (if has "Z" then ["Z"] else []) ++
  (if has "u" && has "v" then ["uv"] else []) ++ (if has "v" && has "T" then ["vT"] else []) ++
  (if has "u" && has "w" then ["uw"] else []) ++ (if has "w" && has "T" then ["wT"] else []) ++
  (if waves then
    (if has "u" && has "v" then ["uv_k"] else []) ++ (if has "v" && has "T" then ["vT_k"] else []) ++
    (if has "u" && has "w" then ["uw_k"] else []) ++ (if has "w" && has "T" then ["wT_k"] else []) ++
    (if has "T" then ["T_k_real", "T_k_imag"] else []) ++ (if has "Z" then ["Z_k_real", "Z_k_imag"] else [])
  else [])

theorem ed_names :
    (∀ s ∈ ["ued", "ved", "wed", "Ted", "Zed"], decide ("ed".toList <:+: s.toList) = true) ∧
    (∀ s ∈ zonalDescribed, decide ("ed".toList <:+: s.toList) = false) := by
  constructor <;> decide +kernel

/-- C296: with at least one of the variables u, v, w, T and Z, the result has exactly the possible diagnostics, in this order. -/
theorem C296_diagnostics {W : Type} (cov : List ℚ → List ℚ → W) (re im : List ℚ → W) (waves : Bool) (ds : List (String × List ℚ))
    (h : ∃ v ∈ ["u", "v", "w", "T", "Z"], (ds.lookup v).isSome) :
    ∃ out, zonalDataset cov re im waves ds = .ok out ∧
      out.map Prod.fst = possibleDiagnostics (fun v => (ds.lookup v).isSome) waves := by
  obtain ⟨e1, e2⟩ := ed_names
  simp only [List.mem_cons, List.not_mem_nil, or_false, forall_eq_or_imp, forall_eq, zonalDescribed] at e1 e2
  obtain ⟨a1, a2, a3, a4, a5⟩ := e1
  obtain ⟨b1, b2, b3, b4, b5, b6, b7, b8, b9, b10, b11, b12, b13, b14, b15, b16, b17⟩ := e2
  simp only [List.mem_cons, List.not_mem_nil, or_false, exists_eq_or_imp, exists_eq_left] at h
  cases hu : ds.lookup "u" <;> cases hv : ds.lookup "v" <;> cases hw : ds.lookup "w" <;> cases ht : ds.lookup "T" <;>
    cases hz : ds.lookup "Z" <;> cases waves <;>
    first
    | (exfalso; simp [hu, hv, hw, ht, hz] at h; done)
    | (simp only [zonalDataset, zonalMeans, zonalCovs, zonalWaves, zonalVars, zonalPairs, zonalCoeffs, possibleDiagnostics,
        List.flatMap_cons, List.flatMap_nil, hu, hv, hw, ht, hz,
        List.nil_append, List.append_nil, List.cons_append, if_true, if_false, Bool.false_eq_true,
        List.filter_cons, List.filter_nil, a1, a2, a3, a4, a5, b1, b2, b3, b4, b5, b6, b7, b8, b9, b10, b11, b12, b13, b14, b15, b16, b17,
        Bool.not_true, Bool.not_false, List.isEmpty_cons]
       exact ⟨_, rfl, rfl⟩)

/-- C296: without any of the variables the function fails with an UnboundLocalError. -/
theorem C296_no_variable {W : Type} (cov : List ℚ → List ℚ → W) (re im : List ℚ → W) (waves : Bool) (ds : List (String × List ℚ))
    (h : ∀ v ∈ ["u", "v", "w", "T", "Z"], ds.lookup v = none) : zonalDataset cov re im waves ds = .error .unboundLocalError := by
  simp only [List.mem_cons, List.not_mem_nil, or_false, forall_eq_or_imp, forall_eq] at h
  obtain ⟨h1, h2, h3, h4, h5⟩ := h
  unfold zonalDataset zonalMeans zonalCovs zonalWaves zonalVars zonalPairs zonalCoeffs
  simp [h1, h2, h3, h4, h5]

example : (zonalDataset (W := Unit) (fun _ _ => ()) (fun _ => ()) (fun _ => ()) true [("v", [1, 3]), ("T", [2, 4]), ("q", [0, 0])]).map
    (fun o => o.map Prod.fst) = .ok ["v", "T", "vT", "vT_k", "T_k_real", "T_k_imag"] := by
  obtain ⟨o, h1, h2⟩ := C296_diagnostics (W := Unit) (fun _ _ => ()) (fun _ => ()) (fun _ => ()) true
    [("v", [1, 3]), ("T", [2, 4]), ("q", [0, 0])] ⟨"v", by simp, rfl⟩
  rw [h1]
  simp only [Except.map, h2]
  rfl

/-! ### C297 -/

theorem eddy_product (m k : ℚ) : ∀ a b : List ℚ, a.length = b.length →
    (List.zipWith (· * ·) (a.map fun x => x - m) (b.map fun x => x - k)).sum =
      (List.zipWith (· * ·) a b).sum - k * a.sum - m * b.sum + a.length * m * k := by
  intro a
  induction a with
  | nil => intro b hb; cases b with
    | nil => simp
    | cons _ _ => simp at hb
  | cons x a ih =>
    intro b hb
    cases b with
    | nil => simp at hb
    | cons y b =>
      simp only [List.map_cons, List.zipWith_cons_cons, List.sum_cons, List.length_cons] at *
      rw [ih b (by omega)]
      push_cast
      ring

/-- C297: the flux of a pair of variables is the mean of their product minus the product of their means, and the zonal mean of a
variable is its mean. -/
theorem C297_flux {W : Type} (ds : List (String × List ℚ)) (p : (String × String) × (String × String)) (hp : p ∈ zonalPairs)
    (a b : List ℚ) (ha : ds.lookup p.1.1 = some a) (hb : ds.lookup p.1.2 = some b) (hl : a.length = b.length) (h0 : a ≠ []) :
    (p.2.1, ZonalValue.mean (W := W) ((List.zipWith (· * ·) a b).sum / a.length - a.sum / a.length * (b.sum / b.length))) ∈
      zonalCovs (W := W) ds := by
  refine List.mem_flatMap.mpr ⟨p, hp, ?_⟩
  rw [ha, hb]
  simp only [List.mem_singleton, Prod.mk.injEq, true_and, ZonalValue.mean.injEq]
  have hn : (a.length : ℚ) ≠ 0 := by
    have : a.length ≠ 0 := fun h => h0 (List.length_eq_zero_iff.mp h)
    exact_mod_cast this
  unfold circleMean circleEddy
  rw [eddy_product _ _ a b hl]
  simp only [List.length_zipWith, List.length_map, ← hl, min_self, circleMean]
  field_simp
  ring

/-- C297: in the result of the function, for all data. -/
theorem C297_result {W : Type} (cov : List ℚ → List ℚ → W) (re im : List ℚ → W) (waves : Bool) (ds : List (String × List ℚ))
    (out : List (String × ZonalValue W)) (h : zonalDataset cov re im waves ds = .ok out) :
    (∀ v ∈ ["u", "v", "w", "T", "Z"], ∀ row, ds.lookup v = some row → (v, ZonalValue.mean (row.sum / row.length)) ∈ out) ∧
    (∀ q ∈ [("u", "v", "uv"), ("v", "T", "vT"), ("u", "w", "uw"), ("w", "T", "wT")], ∀ a b, ds.lookup q.1 = some a →
      ds.lookup q.2.1 = some b → a.length = b.length → a ≠ [] →
      (q.2.2, ZonalValue.mean ((List.zipWith (· * ·) a b).sum / a.length - a.sum / a.length * (b.sum / b.length))) ∈ out) := by
  have ho : out = (zonalMeans ds ++ zonalCovs ds ++ (if waves then zonalWaves cov re im ds else [])).filter
      fun p => !decide ("ed".toList <:+: p.1.toList) := by
    unfold zonalDataset at h
    simp only at h
    generalize (zonalMeans ds ++ zonalCovs ds ++ (if waves then zonalWaves cov re im ds else [])) = inter at h ⊢
    split_ifs at h
    exact (Except.ok.inj h).symm
  have hed := ed_names.2
  subst ho
  constructor
  · intro v hv row hr
    refine List.mem_filter.mpr ⟨List.mem_append_left _ (List.mem_append_left _ ?_), ?_⟩
    · refine List.mem_flatMap.mpr ⟨(v, v ++ "ed"), ?_, ?_⟩
      · clear hr; revert v; decide +kernel
      · rw [hr]; simp [circleMean]
    · have : v ∈ zonalDescribed := by clear hr; revert v; decide +kernel
      rw [hed v this]; rfl
  · intro q hq a b ha hb hl h0
    have hm : ((q.1, q.2.1), (q.2.2, q.2.2 ++ "_k")) ∈ zonalPairs := by
      clear ha hb; revert q; decide +kernel
    refine List.mem_filter.mpr ⟨List.mem_append_left _ (List.mem_append_right _ (C297_flux ds _ hm a b ha hb hl h0)), ?_⟩
    have : q.2.2 ∈ zonalDescribed := by clear hm ha hb; revert q; decide +kernel
    rw [hed _ this]; rfl

/-- Two longitudes: winds 1 and 3, temperatures 2 and 4 have the flux 1. -/
example : (List.zipWith (· * ·) [1, 3] [2, 4]).sum / ([1, 3] : List ℚ).length -
    ([1, 3] : List ℚ).sum / ([1, 3] : List ℚ).length * (([2, 4] : List ℚ).sum / ([2, 4] : List ℚ).length) = (1 : ℚ) := by norm_num

end Metcalcpy.Props
