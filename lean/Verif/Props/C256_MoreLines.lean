/-
C256  A point for a list of values of the independent variable: root scores of SL1L2 lines, GRAD and VL1L2 lines.
-/
import Verif.Props.C256_ListedLeads
import Verif.Props.C248_RootScores

namespace Metcalcpy.Props
open Metcalcpy Spec

/-! ### Lines of partial sums -/

/-- Every row is the line of the means of `w c` over the non-empty batch `pairs r`, for the fields `c` of the line type. -/
structure BatchLines {P : Type} (lt : String) (w : String → P → ℚ) (f : Frame) (pairs : List Val → List P) : Prop where
  batch : ∀ r ∈ f.rows, pairs r ≠ []
  total : ∀ r ∈ f.rows, HasNumber f r "total" (pairs r).length
  field : ∀ c ∈ partialSumFields lt, ∀ r ∈ f.rows, HasNumber f r c (avg (w c) (pairs r))

theorem batch_mean {P : Type} {lt : String} {w : String → P → ℚ} {f : Frame} {pairs : List Val → List P} (L : BatchLines lt w f pairs) :
    MeanLines lt f (fun r => (pairs r).length) (fun c r => avg (w c) (pairs r)) := by
  refine ⟨fun r hr => ?_, L.total, L.field⟩
  have := List.length_pos_iff.mpr (L.batch r hr)
  exact_mod_cast this

theorem rowsMean_batches {P : Type} (pairs : List Val → List P) (w : P → ℚ) (g : List (List Val)) (hb : ∀ r ∈ g, pairs r ≠ []) :
    rowsMean (fun r => ((pairs r).length : ℚ)) (fun r => avg w (pairs r)) g = avg w (g.flatMap pairs) := by
  unfold rowsMean avg
  congr 1
  · rw [List.map_flatMap, List.flatMap_def, List.sum_flatten, List.map_map]
    congr 1
    apply List.map_congr_left
    intro r hr
    have : ((pairs r).length : ℚ) ≠ 0 := by
      have := List.length_pos_iff.mpr (hb r hr)
      exact_mod_cast this.ne'
    simp only [Function.comp]
    field_simp
  · rw [List.length_flatMap]
    induction g with
    | nil => simp
    | cons r g ih => simp [ih (fun r hr => hb r (by simp [hr]))]

/-- The pooled rows are the lines of the batches of their groups. -/
theorem pooled_batches {P : Type} {lt : String} {w : String → P → ℚ} {d out : IFrame} {pairs : List Val → List P}
    {group : List Val → List (List Val)} (L : BatchLines lt w d.frame pairs)
    (Q : PooledFrame lt d out (fun r => (pairs r).length) (fun c r => avg (w c) (pairs r)) group) :
    BatchLines lt w out.frame (fun r => (group r).flatMap pairs) ∧
      (out.frame.rows.flatMap (fun r => (group r).flatMap pairs)).Perm (d.frame.rows.flatMap pairs) := by
  have hsub : ∀ r ∈ out.frame.rows, ∀ r' ∈ group r, pairs r' ≠ [] := by
    intro r hr r' hr'
    exact L.batch r' (Q.perm.mem_iff.mp (List.mem_flatMap.mpr ⟨r, hr, hr'⟩))
  refine ⟨⟨?_, ?_, ?_⟩, ?_⟩
  · intro r hr
    obtain ⟨r', l, e⟩ := List.exists_cons_of_ne_nil (Q.ne r hr)
    have := hsub r hr r' (by rw [e]; simp)
    rw [e, List.flatMap_cons]
    simp [this]
  · intro r hr
    have := Q.total r hr
    have e : (((group r).flatMap pairs).length : ℚ) = ((group r).map (fun r => ((pairs r).length : ℚ))).sum := by
      rw [List.length_flatMap]
      induction group r with
      | nil => simp
      | cons a l ih => simp [ih]
    rw [e]
    exact this
  · intro c hc r hr
    have := Q.field c hc r hr
    rwa [rowsMean_batches pairs (w c) _ (hsub r hr)] at this
  · have := Q.perm.flatMap_right pairs
    rwa [List.flatMap_assoc] at this

theorem batch_sub {P : Type} {lt : String} {w : String → P → ℚ} {pairs : List Val → List P} {f g : Frame} (L : BatchLines lt w f pairs)
    (hc : g.cols = f.cols) (hs : ∀ r ∈ g.rows, r ∈ f.rows) : BatchLines lt w g pairs := by
  have key : ∀ c q r, HasNumber f r c q → HasNumber g r c q := by
    rintro c q r ⟨t, h⟩
    refine ⟨t, ?_⟩
    unfold HasCell at h ⊢
    rw [hc]
    exact h
  exact ⟨fun r hr => L.batch r (hs r hr), fun r hr => key _ _ r (L.total r (hs r hr)),
    fun c hc' r hr => key _ _ r (L.field c hc' r (hs r hr))⟩

/-- `statOf` computes the score `Score` of the pooled batches, for all tables with the columns `cols` and the time columns. -/
structure Computes {P : Type} (lt : String) (w : String → P → ℚ) (cols : List String)
    (statOf : String → List (List Val) → Except PyErr PyNum) (Score : String → List P → PyNum → Prop) : Prop where
  value : ∀ (g : Frame) (pairs : List Val → List P), g.cols = cols → BatchLines lt w g pairs → ∀ rows, rows ≠ [] →
    (∀ r ∈ rows, r ∈ g.rows) → ∀ s v, statOf s rows = .ok v → Score s (rows.flatMap pairs) v
  perm : ∀ s a b v, Score s a v → a.Perm b → Score s b v

/-- If the rows of every listed value can be pooled, the scores are those of all lines of the point. -/
theorem listed_batches {P : Type} {lt : String} {w : String → P → ℚ} {statOf : String → List (List Val) → Except PyErr PyNum}
    {Score : String → List P → PyNum → Prop} {f : IFrame} {c : AggConfig} (R : ListRequest f c) {pairs : List Val → List P}
    (L : BatchLines lt w f.frame pairs) (C : Computes lt w f.cols statOf Score) (etb : List PyNum → List PyNum → PyNum) (out : List AggOut)
    (hpool : ∀ p v d, List.Forall₂ (fun x q => x ∈ q.2) p (requestedValues c) → pointIndy f c p = some v →
      hasSemi v = true → d.cols = f.cols → d.frame.rows = rowsOfPoint f.frame c p →
      (d.rows.map Prod.fst).Pairwise (· < ·) →
      ∃ out group, aggregateFieldValues lt (dictSet c.series c.indyVar [v]) d = .ok out ∧
        PooledFrame lt d out (fun r => (pairs r).length) (fun c r => avg (w c) (pairs r)) group)
    (h : listAxis lt statOf etb f c = .ok out) :
    ∃ plain derived, out = plain ++ derived ∧
      (∀ p, p ∈ plain.map AggOut.point ↔ List.Forall₂ (fun x q => x ∈ q.2) p (requestedValues c)) ∧
      ∀ o ∈ plain, o.fcstVar = c.fcstVars.head? ∧ (rowsOfPoint f.frame c o.point = [] → o.value = .none) ∧
        (rowsOfPoint f.frame c o.point ≠ [] → ∃ s, o.point.getLast? = some s ∧
          Score (lower s) ((rowsOfPoint f.frame c o.point).flatMap pairs) o.value) := by
  have hfe := fields_eq R.fields
  obtain ⟨plain, derived, e, hall⟩ := listAxis_split R.names ⟨R.rows, List.ne_nil_of_mem R.lead⟩
    (fun q hq v hm => (R.values q (hfe ▸ hq) v hm).2) h
  have hpts : ∀ (pts : List (List String)) (outs : List AggOut),
      List.Forall₂ (ListOut lt statOf f c) pts outs → outs.map AggOut.point = pts ∧
      ∀ o ∈ outs, ListOut lt statOf f c o.point o := by
    intro pts outs hf
    induction hf with
    | nil => exact ⟨rfl, by simp⟩
    | cons ha _ ih =>
      obtain ⟨rows, k1, rfl, k3⟩ := ha
      refine ⟨by simp [ih.1], fun o ho => ?_⟩
      rcases List.mem_cons.mp ho with rfl | ho
      · exact ⟨rows, k1, rfl, k3⟩
      · exact ih.2 o ho
  obtain ⟨hp, ho⟩ := hpts _ _ hall
  have hmem : ∀ p, p ∈ plain.map AggOut.point ↔ List.Forall₂ (fun x q => x ∈ q.2) p (requestedValues c) := by
    intro p
    rw [hp, AggConfig.plainPoints, mem_product, hfe, List.forall₂_map_right_iff]
  refine ⟨plain, derived, e, hmem, ?_⟩
  intro o hm
  have hfo := (hmem o.point).mp (List.mem_map_of_mem hm)
  obtain ⟨rows, ⟨d, hd, hcase⟩, -, h2, h3, h4⟩ := ho o hm
  obtain ⟨d1, d2, d3⟩ := pointFrame_rows R hfo hd
  have Ld : BatchLines lt w d.frame pairs := batch_sub L d1 (by
    intro r hr
    rw [d2] at hr
    exact (List.mem_filter.mp hr).1)
  obtain ⟨a, s, hs1, hs2⟩ := last_stat hfo
  have hstat : ∀ old, pointStat c.stats o.point old = lower s := by
    intro old
    rw [hs1, pointStat_last _ _ _ _ hs2]
  have hlast : o.point.getLast? = some s := by rw [hs1]; simp
  rcases hcase with ⟨k1, k2⟩ | ⟨v, g, k1, k2, k3, k4⟩
  · rw [d2] at k2
    refine ⟨h2, ?_, ?_⟩
    · intro he
      rcases h4 with ⟨-, h4⟩ | ⟨h4, -⟩
      · exact h4
      · exact absurd (k2.trans he) h4
    · intro hne
      rcases h4 with ⟨h4, -⟩ | ⟨-, old, h4⟩
      · exact absurd (k2.symm.trans h4) hne
      · refine ⟨s, hlast, ?_⟩
        rw [hstat, k2] at h4
        exact C.value f.frame pairs rfl L _ hne (fun r hr => (List.mem_filter.mp hr).1) _ _ h4
  · obtain ⟨g', group, a1, Q⟩ := hpool o.point v d hfo k1 k2 d1 d2 d3
    rw [k3] at a1
    simp only [Except.ok.injEq] at a1
    subst a1
    have hiff : rows = [] ↔ rowsOfPoint f.frame c o.point = [] := by
      rw [k4, ← d2]
      constructor
      · intro he
        have := Q.perm
        rw [he, List.flatMap_nil] at this
        exact List.nil_perm.mp this
      · intro he
        have := Q.perm
        rw [he] at this
        have := List.perm_nil.mp this
        rw [List.flatMap_eq_nil_iff] at this
        apply List.eq_nil_iff_forall_not_mem.mpr
        intro r hr
        exact Q.ne r hr (this r hr)
    refine ⟨h2, ?_, ?_⟩
    · intro he
      rcases h4 with ⟨-, h4⟩ | ⟨h4, -⟩
      · exact h4
      · exact absurd (hiff.mpr he) h4
    · intro hne
      rcases h4 with ⟨h4, -⟩ | ⟨h5, old, h4⟩
      · exact absurd (hiff.mp h4) hne
      · refine ⟨s, hlast, ?_⟩
        rw [hstat, k4] at h4
        rw [← d2]
        obtain ⟨L', hperm⟩ := pooled_batches Ld Q
        exact C.perm _ _ _ _ (C.value g.frame _ (Q.cols.trans d1) L' _ (by rw [← k4]; exact h5) (fun r hr => hr) _ _ h4) hperm

/-! ### Leads and other values -/

/-- The rows of the lists of the request can be pooled: integer leads, or texts of another variable with every valid time of a point at
every lead of the point. -/
def PoolableLists (f : IFrame) (c : AggConfig) : Prop :=
  (c.indyVar = "fcst_lead" ∧ ∀ v ∈ c.indyVals, ';' ∈ v.toList → ∀ w ∈ semiParts v, ∃ z, IsIntText w z) ∨
  (c.indyVar ≠ "fcst_lead" ∧ c.indyVar ≠ "fcst_valid_beg" ∧
    (∀ v ∈ c.indyVals, ';' ∈ v.toList → ∀ w ∈ semiParts v, PlainText w) ∧
    ∀ p v, List.Forall₂ (fun x q => x ∈ q.2) p (requestedValues c) → IndyOf c p v → ';' ∈ v.toList →
      ∀ r ∈ rowsOfPoint f.frame c p, ∀ r' ∈ rowsOfPoint f.frame c p, ∀ valid lead,
        HasCell f.frame r "fcst_valid_beg" valid → HasCell f.frame r' "fcst_lead" lead →
        ∃ r'' ∈ rowsOfPoint f.frame c p, AtTime f.frame valid lead r'')

/-- `out` shows at every requested point the score of all lines of the point. -/
def ListScores {P : Type} (Score : String → List P → PyNum → Prop) (f : IFrame) (c : AggConfig) (pairs : List Val → List P)
    (out : List AggOut) : Prop :=
  ∃ plain derived, out = plain ++ derived ∧
    (∀ p, p ∈ plain.map AggOut.point ↔ List.Forall₂ (fun x q => x ∈ q.2) p (requestedValues c)) ∧
    ∀ o ∈ plain, o.fcstVar = c.fcstVars.head? ∧ (rowsOfPoint f.frame c o.point = [] → o.value = .none) ∧
      (rowsOfPoint f.frame c o.point ≠ [] → ∃ s, o.point.getLast? = some s ∧
        Score (lower s) ((rowsOfPoint f.frame c o.point).flatMap pairs) o.value)

theorem listed_values {P : Type} {lt : String} (hlt : SameNames lt) {w : String → P → ℚ}
    {statOf : String → List (List Val) → Except PyErr PyNum} {Score : String → List P → PyNum → Prop} {f : IFrame} {c : AggConfig}
    (R : ListRequest f c) (hl : PoolableLists f c) {pairs : List Val → List P} (L : BatchLines lt w f.frame pairs)
    (C : Computes lt w f.cols statOf Score) (etb : List PyNum → List PyNum → PyNum) (out : List AggOut)
    (h : listAxis lt statOf etb f c = .ok out) : ListScores Score f c pairs out := by
  refine listed_batches R L C etb out ?_ h
  intro p v d hfo hv hsemi d1 d2 d3
  obtain ⟨m1, m2⟩ := pointIndy_some R.fields hfo hv
  have hsub : ∀ r ∈ d.frame.rows, r ∈ f.frame.rows := by
    intro r hr
    rw [d2] at hr
    exact (List.mem_filter.mp hr).1
  have hs' : ';' ∈ v.toList := by simpa [hasSemi] using hsemi
  have Ld : BatchLines lt w d.frame pairs := batch_sub L d1 hsub
  have hwf : ∀ r ∈ d.frame.rows, r.length = d.cols.length := by
    intro r hr
    rw [R.wf r (hsub r hr)]
    exact congrArg List.length d1.symm
  rcases hl with ⟨hindy, hints⟩ | ⟨hindy, hindy', htext, hcomplete⟩
  · have hall : ∀ r ∈ d.frame.rows, InLeads d.frame v r := by
      intro r hr
      rw [d2] at hr
      have := (List.mem_filter.mp hr).2
      simp only [decide_eq_true_eq] at this
      obtain ⟨cell, hc, ha⟩ := this.1 _ m2 R.indy
      obtain ⟨w, hw, hcw⟩ := cellAmong_list ha hs' (R.lists v m1 hs')
      obtain ⟨z, hz⟩ := hints v m1 hs' w hw
      have hw0 : w ≠ "" := by
        rintro rfl
        have := (pyInt?_iff "" z).mpr hz
        revert this
        have : pyInt? "" = none := by decide +kernel
        rw [this]
        simp
      simp only [hindy] at hc
      refine ⟨w, hw, hw0, z, hz, ?_⟩
      rcases hcw with ⟨z', hz', t, rfl⟩ | ⟨q, hq, t, rfl⟩ | ⟨hno, -, -⟩
      · have : z' = z := by
          have h1 := (pyInt?_iff _ _).mpr hz
          have h2 := (pyInt?_iff _ _).mpr hz'
          rw [h1] at h2
          simpa using h2.symm
        subst this
        exact ⟨t, (hasCell_cols (f := d.frame) (g := f.frame) d1 _ _ _).mpr hc⟩
      · exact absurd ⟨by simp [isStringInteger, (pyInt?_iff _ _).mpr hz], (isDecimal_iff w).mp ⟨q, hq⟩⟩ (C53_exclusive w)
      · exact absurd hz (hno z)
    have I : LeadInput d v := by
      refine ⟨hwf, by rw [d1]; exact R.valid, by rw [d1]; exact R.lead, d3, ?_, ?_⟩
      · intro r hr hc
        exact (R.times r (hsub r hr)).1 ((hasCell_cols (f := d.frame) (g := f.frame) d1 _ _ _).mp hc)
      · intro w hw _
        exact hints v m1 hs' w hw
    have hser := only_list R.fields R.series hsemi
    rw [hindy] at hser
    obtain ⟨g, group, a1, a2, -⟩ := pool_leads hlt v _ d I hser (batch_mean Ld) hall
    rw [hindy]
    exact ⟨g, group, a1, a2⟩
  · have hall : ∀ r ∈ d.frame.rows, InRegion d.frame c.indyVar v r := by
      intro r hr
      rw [d2] at hr
      have := (List.mem_filter.mp hr).2
      simp only [decide_eq_true_eq] at this
      obtain ⟨cell, hc, ha⟩ := this.1 _ m2 R.indy
      obtain ⟨w, hw, hcw⟩ := cellAmong_list ha hs' (R.lists v m1 hs')
      obtain ⟨t1, t2, -⟩ := htext v m1 hs' w hw
      refine ⟨w, hw, (hasCell_cols (f := d.frame) (g := f.frame) d1 _ _ _).mpr ?_⟩
      rcases hcw with ⟨z', hz', -⟩ | ⟨q, hq, -⟩ | ⟨-, -, rfl⟩
      · exact absurd hz' (t1 z')
      · exact absurd hq (t2 q)
      · exact hc
    have I : RegionInput d c.indyVar v := by
      refine ⟨hwf, by rw [d1]; exact R.valid, by rw [d1]; exact R.lead, by rw [d1]; exact R.indy, hindy, d3, ?_⟩
      intro r hr
      rw [hasCell_cols (f := d.frame) (g := f.frame) d1, hasCell_cols (f := d.frame) (g := f.frame) d1]
      exact R.times r (hsub r hr)
    obtain ⟨g, group, a1, a2, -⟩ := pool_regions hlt c.indyVar v _ d I (only_list R.fields R.series hsemi)
      hindy' (batch_mean Ld) hall (by
      rintro valid lead ⟨r, hr, h1⟩ ⟨r', hr', h2⟩
      rw [hasCell_cols (f := d.frame) (g := f.frame) d1] at h1 h2
      rw [d2] at hr hr' ⊢
      obtain ⟨r'', hr'', h3⟩ := hcomplete p v hfo m2 hs' r hr r' hr' valid lead h1 h2
      refine ⟨r'', hr'', ?_⟩
      unfold AtTime at h3 ⊢
      rw [hasCell_cols (f := d.frame) (g := f.frame) d1, hasCell_cols (f := d.frame) (g := f.frame) d1]
      exact h3)
    exact ⟨g, group, a1, a2⟩

/-! ### Gradients -/

theorem gradScore_perm {s : String} {a b : List Pair} {v : PyNum} (h : GradScore s a v) (hp : a.Perm b) : GradScore s b v := by
  obtain ⟨h1, h2, h3, h4, h5, h6, h7, h8⟩ := h
  have e1 : avg (fun p : Pair => |p.1|) a = avg (fun p => |p.1|) b := perm_avg _ hp
  have e2 : avg (fun p : Pair => |p.2|) a = avg (fun p => |p.2|) b := perm_avg _ hp
  have e3 : avg (fun p : Pair => max |p.1| |p.2|) a = avg (fun p => max |p.1| |p.2|) b := perm_avg _ hp
  have e4 : avg (fun p : Pair => |p.1 - p.2|) a = avg (fun p => |p.1 - p.2|) b := perm_avg _ hp
  rw [e1] at h1 h7
  rw [e2] at h2 h6 h7
  rw [e3] at h3 h5
  rw [e4] at h4 h5 h6
  exact ⟨h1, h2, h3, h4, h5, h6, h7, h8⟩

theorem grad_batches {f : Frame} {pairs : List Val → List Pair} : GradLines f pairs ↔ BatchLines "grad" gradSum f pairs := by
  constructor
  · intro L
    refine ⟨L.batch, L.total, ?_⟩
    intro c hc r hr
    simp only [partialSumFields, List.mem_cons, List.not_mem_nil, or_false] at hc
    rcases hc with rfl | rfl | rfl | rfl
    · exact L.fgbar r hr
    · exact L.ogbar r hr
    · exact L.mgbar r hr
    · exact L.egbar r hr
  · intro L
    exact ⟨L.batch, L.total, L.field "fgbar" (by decide), L.field "ogbar" (by decide), L.field "mgbar" (by decide),
      L.field "egbar" (by decide)⟩

/-- C256: on GRAD lines, the value of every point is the gradient score of all lines of the point, also for lists of leads or other
values. -/
theorem C256_gradients_partial {f : IFrame} {c : AggConfig} (R : ListRequest f c) (hl : PoolableLists f c)
    {pairs : List Val → List Pair} (L : GradLines f.frame pairs) (etb : List PyNum → List PyNum → PyNum)
    (out : List AggOut) (h : listAxis "grad" (ensembleStat .grad f.frame) etb f c = .ok out) : ListScores GradScore f c pairs out := by
  refine listed_values (Or.inr (Or.inr (Or.inr rfl))) R hl (grad_batches.mp L) (Score := GradScore) ⟨?_, fun _ _ _ _ => gradScore_perm⟩ etb out h
  intro g pairs' hg L' rows hne hsub s v hv
  have e : ensembleStat .grad f.frame = ensembleStat .grad g := by
    obtain ⟨a, b⟩ := g
    dsimp only at hg
    subst hg
    rfl
  rw [e] at hv
  unfold ensembleStat at hv
  cases hs : sortData g rows with
  | error e => rw [hs] at hv; simp [bind, Except.bind] at hv
  | ok data =>
    rw [hs] at hv
    exact grad_value (grad_batches.mpr L') (sortData_spec hs).1 hne hsub hv

/-! ### Winds -/

theorem windScore_perm {s : String} {a b : List WindPair} {v : PyNum} (h : WindScore s a v) (hp : a.Perm b) : WindScore s b v := by
  obtain ⟨h1, h2, h3, h4, h5, h6, h7, h8, h9, h10, h11, h12, h13, h14, h15, h16⟩ := h
  have e1 : vectorMse a = vectorMse b := perm_avg _ hp
  have e2 : meanSqF a = meanSqF b := perm_avg _ hp
  have e3 : meanSqO a = meanSqO b := perm_avg _ hp
  obtain ⟨e4, e5⟩ := perm_meanSpeed hp
  have e6 := perm_speedVariance WindPair.fs hp
  have e7 := perm_speedVariance WindPair.os hp
  have e8 : avg WindPair.fs a = avg WindPair.fs b := perm_avg _ hp
  have e9 : avg WindPair.os a = avg WindPair.os b := perm_avg _ hp
  have e10 : avg (fun p : WindPair => p.uf - p.uo) a = avg (fun p => p.uf - p.uo) b := perm_avg _ hp
  have e11 : avg (fun p : WindPair => p.vf - p.vo) a = avg (fun p => p.vf - p.vo) b := perm_avg _ hp
  have m : ∀ (φ : WindPair → Prop), (∀ p ∈ b, φ p) → ∀ p ∈ a, φ p := fun φ h p hm => h p (hp.mem_iff.mp hm)
  rw [e1] at h1 h2
  rw [e2] at h3 h6
  rw [e3] at h3 h7
  rw [e4] at h8 h11 h12
  rw [e5] at h9 h11 h12
  rw [e6] at h13 h15
  rw [e7] at h14 h16
  rw [e8] at h4
  rw [e9] at h5
  rw [e10, e11] at h10
  exact ⟨h1, h2, h3, h4, h5, h6, h7, h8, h9, h10, h11, h12, fun e x y => h13 e (m _ x) (m _ y), fun e x y => h14 e (m _ x) (m _ y),
    fun e x y => h15 e (m _ x) (m _ y), fun e x y => h16 e (m _ x) (m _ y)⟩

theorem rootStat_cols {f g : Frame} (h : f.cols = g.cols) (l : RootLine) : rootStat l f = rootStat l g := by
  obtain ⟨a, b⟩ := f
  obtain ⟨a', b'⟩ := g
  simp only at h
  subst h
  rfl

/-- C256: on VL1L2 lines, the value of every point is the wind statistic of all lines of the point, also for lists of leads or other
values. -/
theorem C256_winds_partial {f : IFrame} {c : AggConfig} (R : ListRequest f c) (hl : PoolableLists f c)
    {pairs : List Val → List WindPair} (L : WindLines vl1l2Columns f.frame pairs) (etb : List PyNum → List PyNum → PyNum)
    (out : List AggOut) (h : listAxis "vl1l2" (rootStat .fields f.frame) etb f c = .ok out) : ListScores WindScore f c pairs out := by
  refine listed_values (Or.inr (Or.inl rfl)) R hl (w := windSum) ⟨L.batch, L.total, L.field⟩ (Score := WindScore) ⟨?_, fun _ _ _ _ => windScore_perm⟩ etb out h
  intro g pairs' hg L' rows hne hsub s v hv
  rw [rootStat_cols (f := f.frame) (g := g) hg.symm] at hv
  obtain ⟨data, hs, hv⟩ := rootStat_inv hv
  exact wind_root_value ⟨L'.batch, L'.total, L'.field⟩ hs hne hsub hv

/-! ### Root scores -/

theorem rootScore_perm {s : String} {a b : List Pair} {v : PyNum} (h : RootScore s a v) (hp : a.Perm b) : RootScore s b v := by
  obtain ⟨h1, h2, h3, h4, h5, h6, h7, h8, h9⟩ := h
  have e1 : meanSquaredError a = meanSquaredError b := perm_avg _ hp
  have e2 : meanError a = meanError b := perm_avg _ hp
  have e3 := perm_bcmse hp
  have e4 := perm_variance Prod.fst hp
  have e5 := perm_variance Prod.snd hp
  have e6 := perm_sampleVariance Prod.fst hp
  have e7 := perm_sampleVariance Prod.snd hp
  have e8 := perm_pearson hp
  have e9 : avg Prod.snd a = avg Prod.snd b := perm_avg _ hp
  have e10 := hp.length_eq
  rw [e1] at h1 h6 h9
  rw [e10] at h2 h3 h6
  rw [e6] at h2
  rw [e7] at h3 h6
  rw [e4, e5, e8] at h4
  rw [e2, e3] at h8
  rw [e9] at h9
  exact ⟨h1, h2, h3, h4, h5, h6, h7, h8, h9⟩

theorem sl_batches {f : Frame} {pairs : List Val → List Pair} :
    Sl1l2Lines f pairs ↔ BatchLines "sl1l2" (fun c p => slField c [p]) f pairs := by
  have hw : ∀ c (w : Pair → ℚ), (∀ l, slField c l = avg w l) → ∀ l, avg (fun p => slField c [p]) l = avg w l := by
    intro c w h l
    simp only [h]
    unfold avg
    simp
  have f1 : ∀ l, avg (fun p => slField "fbar" [p]) l = avg Prod.fst l := hw _ _ fun _ => rfl
  have f2 : ∀ l, avg (fun p => slField "obar" [p]) l = avg Prod.snd l := hw _ _ fun _ => rfl
  have f3 : ∀ l, avg (fun p => slField "fobar" [p]) l = avg (fun p => p.1 * p.2) l := hw _ _ fun _ => rfl
  have f4 : ∀ l, avg (fun p => slField "ffbar" [p]) l = avg (fun p => p.1 * p.1) l := hw _ _ fun _ => rfl
  have f5 : ∀ l, avg (fun p => slField "oobar" [p]) l = avg (fun p => p.2 * p.2) l := hw _ _ fun _ => rfl
  constructor
  · intro L
    refine ⟨L.batch, L.total, ?_⟩
    intro c hc r hr
    simp only [partialSumFields, List.mem_cons, List.not_mem_nil, or_false] at hc
    rcases hc with rfl | rfl | rfl | rfl | rfl
    · rw [f1]; exact L.fbar r hr
    · rw [f2]; exact L.obar r hr
    · rw [f3]; exact L.fobar r hr
    · rw [f4]; exact L.ffbar r hr
    · rw [f5]; exact L.oobar r hr
  · intro L
    refine ⟨L.batch, L.total, ?_, ?_, ?_, ?_, ?_⟩
    · intro r hr; have := L.field "fbar" (by decide) r hr; rwa [f1] at this
    · intro r hr; have := L.field "obar" (by decide) r hr; rwa [f2] at this
    · intro r hr; have := L.field "fobar" (by decide) r hr; rwa [f3] at this
    · intro r hr; have := L.field "ffbar" (by decide) r hr; rwa [f4] at this
    · intro r hr; have := L.field "oobar" (by decide) r hr; rwa [f5] at this

/-- C256: RMSE, standard deviations, correlation, MSESS, BCRMSE and SI of SL1L2 lines are those of all lines of the point, also for lists
of leads or other values. -/
theorem C256_roots_partial {f : IFrame} {c : AggConfig} (R : ListRequest f c) (hl : PoolableLists f c)
    {pairs : List Val → List Pair} (L : Sl1l2Lines f.frame pairs) (etb : List PyNum → List PyNum → PyNum)
    (out : List AggOut) (h : listAxis "sl1l2" (rootStat .fields f.frame) etb f c = .ok out) : ListScores RootScore f c pairs out := by
  refine listed_values (Or.inl rfl) R hl (sl_batches.mp L) (Score := RootScore) ⟨?_, fun _ _ _ _ => rootScore_perm⟩ etb out h
  intro g pairs' hg L' rows hne hsub s v hv
  rw [rootStat_cols (f := f.frame) (g := g) hg.symm] at hv
  obtain ⟨data, hs, hv⟩ := rootStat_inv hv
  exact sl_root_value (sl_batches.mpr L') hs hne hsub hv

/-! ### Examples -/

/-- A run completes if another one, whose statistic is defined less often, does. -/
theorem listAxis_completes {lt : String} {stat₁ stat₂ : String → List (List Val) → Except PyErr PyNum} {etb : List PyNum → List PyNum → PyNum}
    {f : IFrame} {c : AggConfig} (hd : c.derived = []) (hp : ∀ p ∈ c.plainPoints, isDerivedPoint (some p) = false)
    (hs : ∀ s rows v, stat₁ s rows = .ok v → ∃ v', stat₂ s rows = .ok v') {out₁ : List AggOut}
    (h : listAxis lt stat₁ etb f c = .ok out₁) : ∃ out, listAxis lt stat₂ etb f c = .ok out := by
  have step : ∀ (curves : List (String × DerivedCurve)) (l : List (List String)), (∀ p ∈ l, isDerivedPoint (some p) = false) →
      ∀ (a b : AggState × List (String × List String)), a.1.stat = b.1.stat → a.2 = b.2 → ∀ a',
      l.foldlM (listStep lt stat₁ etb f c curves) a = .ok a' → ∃ b', l.foldlM (listStep lt stat₂ etb f c curves) b = .ok b' := by
    intro curves l
    induction l with
    | nil => intro _ a b _ _ a' _; exact ⟨b, rfl⟩
    | cons p l ih =>
      intro hl a b e1 e2 a' ha
      rw [List.foldlM_cons] at ha ⊢
      have hp' := hl p (by simp)
      cases h1 : listStep lt stat₁ etb f c curves a p with
      | error e => rw [h1] at ha; simp [bind, Except.bind] at ha
      | ok a1 =>
        rw [h1] at ha
        have : ∃ b1, listStep lt stat₂ etb f c curves b p = .ok b1 ∧ a1.1.stat = b1.1.stat ∧ a1.2 = b1.2 := by
          unfold listStep at h1 ⊢
          simp only [hp', Bool.false_eq_true, if_false, e1, e2] at h1 ⊢
          cases h2 : pointFrame f ((c.fields.map Prod.fst).zip p) c.fcstVars.head? with
          | error e => rw [h2] at h1; simp [bind, Except.bind] at h1
          | ok d =>
            rw [h2] at h1
            simp only [bind, Except.bind] at h1 ⊢
            cases h3 : poolPoint lt c.indyVar b.2 (pointIndy f c p) d with
            | error e => rw [h3] at h1; simp at h1
            | ok g =>
              rw [h3] at h1
              simp only at h1 ⊢
              by_cases h4 : g.2.frame.rows.isEmpty = true
              · simp only [h4, if_true, Except.ok.injEq] at h1 ⊢
                subst h1
                exact ⟨_, rfl, rfl, rfl⟩
              · simp only [h4, Bool.false_eq_true, if_false] at h1 ⊢
                cases h5 : stat₁ (pointStat c.stats p b.1.stat) g.2.frame.rows with
                | error e => rw [h5] at h1; simp at h1
                | ok v =>
                  obtain ⟨v', h6⟩ := hs _ _ _ h5
                  rw [h5] at h1
                  rw [h6]
                  simp only [Except.ok.injEq] at h1 ⊢
                  subst h1
                  exact ⟨_, rfl, rfl, rfl⟩
        obtain ⟨b1, k1, k2, k3⟩ := this
        rw [k1]
        exact ih (fun q hq => hl q (by simp [hq])) a1 b1 k2 k3 a' ha
  unfold listAxis at h ⊢
  by_cases he : f.frame.isEmpty = true
  · rw [if_pos he]
    exact ⟨_, rfl⟩
  · rw [if_neg he] at h ⊢
    simp only [hd, List.mapM_nil, pure, Except.pure, bind, Except.bind, List.flatMap_nil, List.append_nil, List.foldl_nil] at h ⊢
    generalize hf : c.plainPoints.foldlM (listStep lt stat₁ etb f c [])
      (⟨"", [], []⟩, c.series) = r at h
    cases r with
    | error e => simp at h
    | ok a' =>
      obtain ⟨b', hb⟩ := step _ _ hp _ (⟨"", [], []⟩, c.series) rfl rfl a' hf
      rw [hb]
      exact ⟨_, rfl⟩

theorem hasNumber_at {f : Frame} (i : ℕ) (c : String) (g : List Val → ℚ) (h1 : f.cols[i]? = some c)
    (h2 : ∀ j < i, f.cols[j]? ≠ some c) (h3 : ∀ r ∈ f.rows, numberOf (cellAt r i) = some (g r)) :
    ∀ r ∈ f.rows, HasNumber f r c (g r) := by
  intro r hr
  have := h3 r hr
  unfold cellAt at this
  cases h : r[i]? with
  | none => rw [h] at this; simp [numberOf] at this
  | some v =>
    rw [h] at this
    cases v with
    | num q t =>
      simp only [Option.getD_some, numberOf, Option.some.injEq] at this
      exact ⟨t, i, h1, h2, this ▸ h⟩
    | str s => simp [numberOf] at this
    | null => simp [numberOf] at this

/-- Lines of two leads and two valid times with the given columns of partial sums. -/
def exListed (stat : String) (cols : List String) (a b c : List ℚ) : IFrame :=
  { cols := ["fcst_valid_beg", "fcst_lead", "vx_mask", "fcst_var", "stat_name", "total"] ++ cols
    rows := [
      (0, [.str "t1", .num 12 "12", .str "EAST", .str "TMP", .str stat] ++ a.map (fun q => .num q "")),
      (1, [.str "t1", .num 24 "24", .str "EAST", .str "TMP", .str stat] ++ b.map (fun q => .num q "")),
      (2, [.str "t2", .num 12 "12", .str "EAST", .str "TMP", .str stat] ++ c.map (fun q => .num q ""))] }

/-- The leads 12 and 24 together. -/
def exListedConfig (stat : String) : AggConfig := ⟨[("vx_mask", ["EAST"])], "fcst_lead", ["12;24"], [stat], [], ["TMP"], []⟩

theorem exListed_poolable (f : IFrame) (stat : String) : PoolableLists f (exListedConfig stat) := by
  refine Or.inl ⟨rfl, ?_⟩
  intro v hv hs w hw
  obtain rfl : v = "12;24" := by simpa [exListedConfig] using hv
  have : w = "12" ∨ w = "24" := by
    revert w
    decide +kernel
  rcases this with rfl | rfl
  · exact ⟨12, (pyInt?_iff _ _).mp (by decide +kernel)⟩
  · exact ⟨24, (pyInt?_iff _ _).mp (by decide +kernel)⟩

theorem exListed_request {stat : String} {cols : List String} {a b c : List ℚ}
    (hl : a.length = cols.length + 1 ∧ b.length = cols.length + 1 ∧ c.length = cols.length + 1)
    (hs : (∃ vals, StandsFor stat vals) ∧ isDerivedPoint (some [stat]) = false) :
    ListRequest (exListed stat cols a b c) (exListedConfig stat) where
  wf := by
    intro r hr
    simp only [exListed, IFrame.frame, List.map_cons, List.map_nil, List.mem_cons, List.not_mem_nil, or_false] at hr
    rcases hr with rfl | rfl | rfl <;> simp [exListed, IFrame.frame, hl, Nat.add_comm]
  rows := by simp [exListed]
  labels := by simp [exListed]
  valid := by simp [exListed]
  lead := by simp [exListed]
  indy := by simp [exListed, exListedConfig]
  times := by
    intro r hr
    have h1 : (exListed stat cols a b c).frame.idx? "fcst_valid_beg" = some 0 := by
      simp [exListed, IFrame.frame, Frame.idx?, List.findIdx?_cons]
    have h2 : (exListed stat cols a b c).frame.idx? "fcst_lead" = some 1 := by
      simp [exListed, IFrame.frame, Frame.idx?, List.findIdx?_cons]
    rw [hasCell_iff h1, hasCell_iff h2]
    simp only [exListed, IFrame.frame, List.map_cons, List.map_nil, List.mem_cons, List.not_mem_nil, or_false] at hr
    rcases hr with rfl | rfl | rfl <;> simp
  names := by unfold PlainNames exListedConfig; simp
  fields := by unfold FieldsDistinct exListedConfig; simp
  values := by
    intro q hq v hv
    have : v = "EAST" ∨ v = "12;24" ∨ v = stat := by
      simp only [requestedValues, exListedConfig, List.cons_ne_nil, if_false, List.cons_append, List.nil_append, List.mem_cons,
        List.not_mem_nil, or_false] at hq
      rcases hq with rfl | rfl | rfl <;> simp at hv <;> simp [hv]
    rcases this with rfl | rfl | rfl
    · exact ⟨⟨_, standsFor_self (by decide) (by decide)⟩, by decide +kernel⟩
    · exact ⟨⟨_, standsFor_two (a := "12") (b := "24") (by decide) (by decide) (by decide) (by decide)⟩, by decide +kernel⟩
    · exact hs
  series := by unfold exListedConfig; simp
  lists := by unfold exListedConfig; simp

/-- The pairs behind the lines of `exListed`. -/
def exListedPairs (r : List Val) : List Pair :=
  if cellAt r 0 = .str "t1" then if cellAt r 1 = .num 12 "12" then [(2, 1), (4, 3)] else [(9, 1)] else [(3, 2)]

def exGradFrame : IFrame :=
  exListed "S1" ["fgbar", "ogbar", "mgbar", "egbar"] [2, 3, 2, 3, 1] [1, 9, 1, 9, 8] [1, 3, 2, 3, 1]

theorem exListedGrad_lines : GradLines exGradFrame.frame exListedPairs :=
  ⟨by decide +kernel, hasNumber_at 5 _ _ (by decide) (by decide) (by decide +kernel),
    hasNumber_at 6 _ _ (by decide) (by decide) (by decide +kernel), hasNumber_at 7 _ _ (by decide) (by decide) (by decide +kernel),
    hasNumber_at 8 _ _ (by decide) (by decide) (by decide +kernel), hasNumber_at 9 _ _ (by decide) (by decide) (by decide +kernel)⟩

/-- C256 (example): the S1 score of the leads 12 and 24 over all four pairs is 100 · 11 / 18, from two valid times. -/
example := C256_gradients_partial (f := exGradFrame) (c := exListedConfig "S1") (exListed_request (by decide) ⟨⟨_, standsFor_self (by decide) (by decide)⟩, by decide +kernel⟩)
  (exListed_poolable _ _) exListedGrad_lines (fun _ _ => .none) [⟨["EAST", "12;24", "S1"], some "TMP", .num (611111111 / 10000000), 2⟩]
  (by decide +kernel)

def exRmseFrame : IFrame :=
  exListed "RMSE" ["fbar", "obar", "fobar", "ffbar", "oobar"] [2, 3, 2, 7, 10, 5] [1, 9, 1, 9, 81, 1] [1, 3, 2, 6, 9, 4]

theorem exRmse_lines : Sl1l2Lines exRmseFrame.frame exListedPairs :=
  ⟨by decide +kernel, hasNumber_at 5 _ _ (by decide) (by decide) (by decide +kernel),
    hasNumber_at 6 _ _ (by decide) (by decide) (by decide +kernel), hasNumber_at 7 _ _ (by decide) (by decide) (by decide +kernel),
    hasNumber_at 8 _ _ (by decide) (by decide) (by decide +kernel), hasNumber_at 9 _ _ (by decide) (by decide) (by decide +kernel),
    hasNumber_at 10 _ _ (by decide) (by decide) (by decide +kernel)⟩

/-- The pooled lines of the two valid times. -/
def exRmsePool : Frame :=
  ⟨exRmseFrame.cols, [
    [.str "t1", .str "12", .str "EAST", .str "TMP", .str "RMSE", .num 3 "", .num 5 "", .num (5 / 3) "", .num (23 / 3) "",
      .num (101 / 3) "", .num (11 / 3) ""],
    [.str "t2", .str "12", .str "EAST", .str "TMP", .str "RMSE", .num 1 "", .num 3 "", .num 2 "", .num 6 "", .num 9 "", .num 4 ""]]⟩

theorem exRmsePool_lines : Sl1l2Lines exRmsePool
    (fun r => if cellAt r 0 = .str "t1" then [(2, 1), (4, 3), (9, 1)] else [(3, 2)]) :=
  ⟨by decide +kernel, hasNumber_at 5 _ _ (by decide) (by decide) (by decide +kernel),
    hasNumber_at 6 _ _ (by decide) (by decide) (by decide +kernel), hasNumber_at 7 _ _ (by decide) (by decide) (by decide +kernel),
    hasNumber_at 8 _ _ (by decide) (by decide) (by decide +kernel), hasNumber_at 9 _ _ (by decide) (by decide) (by decide +kernel),
    hasNumber_at 10 _ _ (by decide) (by decide) (by decide +kernel)⟩

theorem sortData_ne {f : Frame} {rows data : List (List Val)} (hs : sortData f rows = .ok data) (hne : rows ≠ []) : data ≠ [] := by
  intro e
  subst e
  exact hne ((sortData_spec hs).1.symm.eq_nil)

theorem exRmse_run : ∃ out, listAxis "sl1l2" (rootStat .fields exRmseFrame.frame) (fun _ _ => .none) exRmseFrame
    (exListedConfig "RMSE") = .ok out := by
  refine listAxis_completes (stat₁ := fun s rows => if s = "rmse" ∧ rows = exRmsePool.rows then .ok .none else .error .valueError)
    rfl (by decide +kernel) ?_ (out₁ := [⟨["EAST", "12;24", "RMSE"], some "TMP", .none, 2⟩]) (by decide +kernel)
  intro s rows v h
  split at h
  · rename_i hc
    obtain ⟨rfl, rfl⟩ := hc
    have hcols : exRmseFrame.frame.cols = exRmsePool.cols := rfl
    cases hs : sortData exRmsePool exRmsePool.rows with
    | error e =>
      have : (sortData exRmsePool exRmsePool.rows).toOption.isSome = true := by decide +kernel
      rw [hs] at this
      cases this
    | ok data =>
      rw [rootStat_cols hcols, rootStat_sorted hs]
      exact sl_root_exists exRmsePool_lines (sortData_ne hs (by decide)) (fun r hr => (sortData_spec hs).1.mem_iff.mp hr) (by simp)
  · cases h

/-- C256 (example): the root mean square error of the leads 12 and 24; the run completes. -/
example := C256_roots_partial (f := exRmseFrame) (c := exListedConfig "RMSE") (exListed_request (by decide) ⟨⟨_, standsFor_self (by decide) (by decide)⟩, by decide +kernel⟩)
  (exListed_poolable _ _) exRmse_lines (fun _ _ => .none) _ exRmse_run.choose_spec

/-- The wind vectors behind the lines. -/
def exListedWinds (r : List Val) : List WindPair :=
  if cellAt r 0 = .str "t1" then
    if cellAt r 1 = .num 12 "12" then [⟨3, 4, 0, 5, 5, 5⟩, ⟨3, 4, 0, 5, 5, 5⟩] else [⟨6, 8, 3, 4, 10, 5⟩]
  else [⟨3, 4, 3, 4, 5, 5⟩]

def exWindFrame : IFrame :=
  exListed "VL1L2_RMSVE" vl1l2Columns [2, 3, 4, 0, 5, 20, 25, 25, 5, 5] [1, 6, 8, 3, 4, 50, 100, 25, 10, 5]
    [1, 3, 4, 3, 4, 25, 25, 25, 5, 5]

/-- The pooled lines of the two valid times. -/
def exWindPool : Frame :=
  ⟨exWindFrame.cols, [
    [.str "t1", .str "12", .str "EAST", .str "TMP", .str "VL1L2_RMSVE", .num 3 "", .num 4 "", .num (16 / 3) "", .num 1 "",
      .num (14 / 3) "", .num 30 "", .num 50 "", .num 25 "", .num (20 / 3) "", .num 5 ""],
    [.str "t2", .str "12", .str "EAST", .str "TMP", .str "VL1L2_RMSVE", .num 1 "", .num 3 "", .num 4 "", .num 3 "", .num 4 "",
      .num 25 "", .num 25 "", .num 25 "", .num 5 "", .num 5 ""]]⟩

theorem windLines_of {f : Frame} {pairs : List Val → List WindPair}
    (hc : f.cols = ["fcst_valid_beg", "fcst_lead", "vx_mask", "fcst_var", "stat_name", "total"] ++ vl1l2Columns)
    (hb : ∀ r ∈ f.rows, pairs r ≠ []) (ht : ∀ r ∈ f.rows, numberOf (cellAt r 5) = some ((pairs r).length : ℚ))
    (hf : ∀ k < 9, ∀ r ∈ f.rows, numberOf (cellAt r (6 + k)) = some (avg (windSum (vl1l2Columns.getD k "")) (pairs r))) :
    WindLines vl1l2Columns f pairs := by
  refine ⟨hb, hasNumber_at 5 _ _ (by rw [hc]; decide) (by rw [hc]; decide) ht, ?_⟩
  intro c hm
  obtain ⟨k, hk, rfl⟩ := List.getElem_of_mem hm
  have hk' : k < 9 := hk
  have := hf k hk'
  rw [List.getD_eq_getElem _ _ hk] at this
  refine hasNumber_at (6 + k) _ _ ?_ ?_ this
  · rw [hc]
    clear this hm
    revert hk
    revert k
    decide
  · rw [hc]
    clear this hm
    revert hk
    revert k
    decide

theorem exWind_lines : WindLines vl1l2Columns exWindFrame.frame exListedWinds :=
  windLines_of rfl (by decide +kernel) (by decide +kernel) (by decide +kernel)

theorem exWindPool_lines : WindLines vl1l2Columns exWindPool
    (fun r => if cellAt r 0 = .str "t1" then [⟨3, 4, 0, 5, 5, 5⟩, ⟨3, 4, 0, 5, 5, 5⟩, ⟨6, 8, 3, 4, 10, 5⟩] else [⟨3, 4, 3, 4, 5, 5⟩]) :=
  windLines_of rfl (by decide +kernel) (by decide +kernel) (by decide +kernel)

theorem exWind_run : ∃ out, listAxis "vl1l2" (rootStat .fields exWindFrame.frame) (fun _ _ => .none) exWindFrame
    (exListedConfig "VL1L2_RMSVE") = .ok out := by
  refine listAxis_completes
    (stat₁ := fun s rows => if s = "vl1l2_rmsve" ∧ rows = exWindPool.rows then .ok .none else .error .valueError)
    rfl (by decide +kernel) ?_ (out₁ := [⟨["EAST", "12;24", "VL1L2_RMSVE"], some "TMP", .none, 2⟩]) (by decide +kernel)
  intro s rows v h
  split at h
  · rename_i hc
    obtain ⟨rfl, rfl⟩ := hc
    have hcols : exWindFrame.frame.cols = exWindPool.cols := rfl
    cases hs : sortData exWindPool exWindPool.rows with
    | error e =>
      have : (sortData exWindPool exWindPool.rows).toOption.isSome = true := by decide +kernel
      rw [hs] at this
      cases this
    | ok data =>
      rw [rootStat_cols hcols, rootStat_sorted hs]
      exact wind_root_exists exWindPool_lines (sortData_ne hs (by decide)) (fun r hr => (sortData_spec hs).1.mem_iff.mp hr) (by simp)
  · cases h

/-- C256 (example): the root mean square vector error of the leads 12 and 24; the run completes. -/
example := C256_winds_partial (f := exWindFrame) (c := exListedConfig "VL1L2_RMSVE") (exListed_request (by decide) ⟨⟨_, standsFor_self (by decide) (by decide)⟩, by decide +kernel⟩)
  (exListed_poolable _ _) exWind_lines (fun _ _ => .none) _ exWind_run.choose_spec

end Metcalcpy.Props
