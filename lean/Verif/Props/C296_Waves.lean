/-
C296  The wave diagnostics of the zonal mean data set.
-/
import Verif.Props.C296_ZonalDataset

namespace Metcalcpy.Props
open Metcalcpy

/-- C296: with waves, the flux by wavenumber of a pair is the wave covariance of its two variables in this order, and the coefficients
of temperature and height are the real and imaginary parts of their wave coefficients. -/
theorem C296_waves {W : Type} (cov : List ℚ → List ℚ → W) (re im : List ℚ → W) (ds : List (String × List ℚ))
    (out : List (String × ZonalValue W)) (h : zonalDataset cov re im true ds = .ok out) :
    (∀ q ∈ [("u", "v", "uv_k"), ("v", "T", "vT_k"), ("u", "w", "uw_k"), ("w", "T", "wT_k")], ∀ a b, ds.lookup q.1 = some a →
      ds.lookup q.2.1 = some b → (q.2.2, ZonalValue.wave (cov a b)) ∈ out) ∧
    (∀ q ∈ [("T", "T_k_real", "T_k_imag"), ("Z", "Z_k_real", "Z_k_imag")], ∀ row, ds.lookup q.1 = some row →
      (q.2.1, ZonalValue.wave (re row)) ∈ out ∧ (q.2.2, ZonalValue.wave (im row)) ∈ out) := by
  have ho : out = (zonalMeans ds ++ zonalCovs ds ++ zonalWaves cov re im ds).filter fun p => !decide ("ed".toList <:+: p.1.toList) := by
    unfold zonalDataset at h
    simp only [if_true] at h
    generalize (zonalMeans ds ++ zonalCovs ds ++ zonalWaves cov re im ds) = inter at h ⊢
    split_ifs at h
    exact (Except.ok.inj h).symm
  have hed := ed_names.2
  subst ho
  have key : ∀ (n : String) (x : ZonalValue W), n ∈ zonalDescribed → (n, x) ∈ zonalWaves cov re im ds →
      (n, x) ∈ (zonalMeans ds ++ zonalCovs ds ++ zonalWaves cov re im ds).filter fun p : String × ZonalValue W => !decide ("ed".toList <:+: p.1.toList) :=
    fun n x hn hx => List.mem_filter.mpr ⟨List.mem_append_right _ hx, by rw [hed n hn]; rfl⟩
  constructor
  · intro q hq a b ha hb
    obtain ⟨n, hn⟩ : ∃ n, ((q.1, q.2.1), (n, q.2.2)) ∈ zonalPairs := by
      simp only [List.mem_cons, List.not_mem_nil, or_false] at hq
      rcases hq with rfl | rfl | rfl | rfl
      · exact ⟨"uv", by decide +kernel⟩
      · exact ⟨"vT", by decide +kernel⟩
      · exact ⟨"uw", by decide +kernel⟩
      · exact ⟨"wT", by decide +kernel⟩
    have hd : q.2.2 ∈ zonalDescribed := by clear hn ha hb; revert q; decide +kernel
    refine key _ _ hd (List.mem_append_left _ (List.mem_flatMap.mpr ⟨_, hn, ?_⟩))
    rw [ha, hb]
    simp
  · intro q hq row hr
    have hn : q ∈ zonalCoeffs := by clear hr; revert q; decide +kernel
    have hd : q.2.1 ∈ zonalDescribed ∧ q.2.2 ∈ zonalDescribed := by clear hr hn; revert q; decide +kernel
    refine ⟨key _ _ hd.1 (List.mem_append_right _ (List.mem_flatMap.mpr ⟨_, hn, ?_⟩)),
      key _ _ hd.2 (List.mem_append_right _ (List.mem_flatMap.mpr ⟨_, hn, ?_⟩))⟩ <;>
    · rw [hr]
      simp

/-- A set with wind and temperature has the wave flux of heat. -/
example (out : List (String × ZonalValue ℚ))
    (h : zonalDataset (fun a b => a.sum - b.sum) List.sum List.sum true [("v", [1, 3]), ("T", [2, 4])] = .ok out) :
    ("vT_k", ZonalValue.wave ((1 : ℚ) + (3 + 0) - (2 + (4 + 0)))) ∈ out :=
  (C296_waves _ _ _ _ _ h).1 ("v", "T", "vT_k") (by simp) [1, 3] [2, 4] rfl rfl

end Metcalcpy.Props
