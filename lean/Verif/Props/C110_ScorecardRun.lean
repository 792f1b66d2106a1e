/-
C110  A scorecard has a row for every comparison with data, labelled with it (partial).
C111  The value of a DIFF row is the difference of the two means, that of a SINGLE row the mean.
C112  The significance of a DIFF_SIG row is that of the values paired by case (partial).
-/
import Verif.Model.ScorecardRun
import Verif.Spec.AggPoints
import Verif.Spec.ScorecardRun
import Verif.Props.C102_DerivedPoints
import Verif.Props.C105_DerivedBoot
import Verif.Props.C54_EqualizeAxis
import Verif.Props.C107_SumStat

namespace Metcalcpy.Props
open Metcalcpy Spec

/-! ### Fields and points -/

/-- The fields of a scorecard point, in order. -/
def scoreValues (c : AggConfig) : List (String × List String) :=
  c.series ++ [("stat_name", c.stats)] ++ (if c.indyVals = [] then [] else [(c.indyVar, c.indyVals)])

theorem scoreFields_eq {c : AggConfig} (h : FieldsDistinct c) : scoreFields c = scoreValues c := by
  obtain ⟨h1, h2, h3⟩ := h
  unfold scoreFields scoreValues
  by_cases he : c.indyVals = []
  · simp only [he, List.isEmpty_nil, if_true, List.append_nil]
    rw [dictSet_new _ _ _ h2]
  · have : c.indyVals.isEmpty = false := by simpa using he
    simp only [this, he, Bool.false_eq_true, if_false]
    rw [dictSet_new _ _ _ h2, dictSet_new]
    simp only [List.map_append, List.map_cons, List.map_nil, List.mem_append, List.mem_singleton, not_or]
    exact ⟨h1, h3⟩

theorem scoreValues_perm (c : AggConfig) : (scoreValues c).Perm (requestedValues c) := by
  unfold scoreValues requestedValues
  rw [List.append_assoc, List.append_assoc]
  exact List.Perm.append_left _ List.perm_append_comm

theorem mem_scorePoints {c : AggConfig} (h : FieldsDistinct c) {k : List String} :
    k ∈ scorePoints c ↔ List.Forall₂ (fun w (q : String × List String) => w ∈ q.2) k (scoreValues c) := by
  rw [scorePoints, mem_product, scoreFields_eq h, List.forall₂_map_right_iff]

/-! ### The loop -/

theorem scoreStep_plain {sig : List PyNum → List PyNum → Except PyErr PyNum} {f : Frame} {c : AggConfig}
    {curves : List (String × DerivedCurve)} {st st' : ScoreState} {p : List String}
    (hp : isDerivedPoint (some p) = false) (h : scoreStep sig f c curves st p = .ok st') :
    ∃ rows, pointRows f (((scoreFields c).map Prod.fst).zip p) none = .ok rows ∧
      st'.results = putPoint st.results p rows ∧ st'.out = st.out := by
  unfold scoreStep at h
  rw [hp] at h
  simp only [Bool.false_eq_true, if_false, bind, Except.bind] at h
  split at h
  · simp at h
  · next rows hr =>
    simp only [Except.ok.injEq] at h
    exact ⟨rows, hr, by rw [← h], by rw [← h]⟩

theorem scoreStep_derived {sig : List PyNum → List PyNum → Except PyErr PyNum} {f : Frame} {c : AggConfig}
    {curves : List (String × DerivedCurve)} {st st' : ScoreState} {p : List String}
    (hp : isDerivedPoint (some p) = true) (h : scoreStep sig f c curves st p = .ok st') :
    ∃ o, scoreDerived sig f c curves st.results p = .ok o ∧ st'.results = st.results ∧ st'.out = st.out ++ o.toList := by
  unfold scoreStep at h
  rw [hp] at h
  simp only [if_true, bind, Except.bind] at h
  split at h
  · simp at h
  · next o ho =>
    refine ⟨o, ho, ?_⟩
    cases o with
    | none => simp at h; simp [h]
    | some row => simp at h; simp [← h]

theorem score_loop_plain {sig : List PyNum → List PyNum → Except PyErr PyNum} {f : Frame} {c : AggConfig}
    {curves : List (String × DerivedCurve)} (pts : List (List String))
    (hp : ∀ p ∈ pts, isDerivedPoint (some p) = false) {st st' : ScoreState}
    (h : pts.foldlM (scoreStep sig f c curves) st = .ok st') :
    (∀ x ∈ st'.results, x ∈ st.results ∨
      (x.1 ∈ pts ∧ pointRows f (((scoreFields c).map Prod.fst).zip x.1) none = .ok x.2)) ∧
    (∀ x ∈ st.results, ∃ y ∈ st'.results, y.1 = x.1) ∧ (∀ p ∈ pts, ∃ y ∈ st'.results, y.1 = p) ∧
    st'.out = st.out := by
  induction pts generalizing st with
  | nil =>
    simp [pure, Except.pure] at h
    subst h
    exact ⟨fun x hx => Or.inl hx, fun x hx => ⟨x, hx, rfl⟩, by simp, rfl⟩
  | cons p pts ih =>
    obtain ⟨s₁, h₁, h₂⟩ := foldlM_except_cons _ _ _ _ h
    obtain ⟨r, hr, hres, ho⟩ := scoreStep_plain (hp p (by simp)) h₁
    obtain ⟨g1, g2, g3, g4⟩ := ih (fun q hq => hp q (by simp [hq])) h₂
    refine ⟨fun x hx => ?_, fun x hx => ?_, fun q hq => ?_, g4.trans ho⟩
    · rcases g1 x hx with h | ⟨h, h'⟩
      · rw [hres] at h
        rcases putPoint_mem _ _ _ h with rfl | ⟨h, -⟩
        · exact Or.inr ⟨by simp, hr⟩
        · exact Or.inl h
      · exact Or.inr ⟨by simp [h], h'⟩
    · obtain ⟨y, hy, e⟩ := putPoint_keys st.results p r hx
      rw [← hres] at hy
      obtain ⟨z, hz, e'⟩ := g2 y hy
      exact ⟨z, hz, e'.trans e⟩
    · rcases List.mem_cons.mp hq with rfl | hq
      · have : (q, r) ∈ s₁.results := by rw [hres]; exact putPoint_self _ _ _
        obtain ⟨z, hz, e'⟩ := g2 _ this
        exact ⟨z, hz, e'⟩
      · exact g3 q hq

theorem score_loop_derived {sig : List PyNum → List PyNum → Except PyErr PyNum} {f : Frame} {c : AggConfig}
    {curves : List (String × DerivedCurve)} (pts : List (List String))
    (hp : ∀ p ∈ pts, isDerivedPoint (some p) = true) {st st' : ScoreState}
    (h : pts.foldlM (scoreStep sig f c curves) st = .ok st') :
    ∃ outs, st'.out = st.out ++ outs.flatMap Option.toList ∧
      List.Forall₂ (fun p o => scoreDerived sig f c curves st.results p = .ok o) pts outs := by
  induction pts generalizing st with
  | nil =>
    simp [pure, Except.pure] at h
    exact ⟨[], by simp [h], .nil⟩
  | cons p pts ih =>
    obtain ⟨s₁, h₁, h₂⟩ := foldlM_except_cons _ _ _ _ h
    obtain ⟨o, hv, hres, ho⟩ := scoreStep_derived (hp p (by simp)) h₁
    obtain ⟨outs, e, hf⟩ := ih (fun q hq => hp q (by simp [hq])) h₂
    refine ⟨o :: outs, by rw [e, ho, List.append_assoc]; rfl, .cons hv ?_⟩
    rw [hres] at hf
    exact hf

/-- The parts of a run. -/
theorem scorecard_parts {sig : List PyNum → List PyNum → Except PyErr PyNum} {f : Frame} {c : AggConfig}
    {out : List (List (String × Val))} (hne : f.rows ≠ [] ∧ f.cols ≠ []) (hdist : FieldsDistinct c)
    (hv : ∀ q ∈ requestedValues c, ∀ v ∈ q.2, isDerivedPoint (some [v]) = false)
    (h : scorecard sig f c = .ok out) :
    ∃ entries results outs, c.derived.mapM (derivedEntry c) = .ok entries ∧
      (∀ x ∈ results, x.1 ∈ scorePoints c ∧ pointRows f (((scoreFields c).map Prod.fst).zip x.1) none = .ok x.2) ∧
      (∀ p ∈ scorePoints c, ∃ x ∈ results, x.1 = p) ∧
      out = outs.flatMap Option.toList ∧
      List.Forall₂ (fun p o => scoreDerived sig f c (entries.foldl (fun d e => dictSet d e.1 e.2.1) []) results p =
        .ok o) (entries.flatMap (fun e => e.2.2)) outs := by
  unfold scorecard at h
  have : f.isEmpty = false := by
    obtain ⟨h1, h2⟩ := hne
    unfold Frame.isEmpty
    simp [h1, h2]
  rw [this] at h
  simp only [Bool.false_eq_true, if_false] at h
  have hplain : ∀ p ∈ scorePoints c, isDerivedPoint (some p) = false := by
    intro p hp
    rw [mem_scorePoints hdist] at hp
    rw [Bool.eq_false_iff]
    intro hd
    obtain ⟨v, hvp, hd'⟩ := derived_of_mem hd
    obtain ⟨q, hq, hvq⟩ := forall₂_left_mem hp hvp
    rw [hv q ((scoreValues_perm c).mem_iff.mp hq) v hvq] at hd'
    exact Bool.noConfusion hd'
  cases hm : c.derived.mapM (derivedEntry c) with
  | error e => rw [hm] at h; simp [bind, Except.bind] at h
  | ok entries =>
    rw [hm] at h
    simp only [bind, Except.bind] at h
    split at h
    · simp at h
    · next st hst =>
      obtain ⟨s₁, h₁, h₂⟩ := foldlM_except_append _ _ _ _ hst
      obtain ⟨g1, -, g3, g4⟩ := score_loop_plain _ hplain h₁
      have hder : ∀ p ∈ entries.flatMap (fun e => e.2.2), isDerivedPoint (some p) = true := by
        intro p hp
        obtain ⟨e, he, hpe⟩ := List.mem_flatMap.mp hp
        obtain ⟨d, -, hde⟩ : ∃ d ∈ c.derived, derivedEntry c d = .ok e := forall₂_right_mem (mapM_except_mem _ hm) he
        exact (derivedEntry_points hdist hde).2 p hpe
      obtain ⟨outs, e₂, hq⟩ := score_loop_derived _ hder h₂
      refine ⟨entries, s₁.results, outs, rfl, ?_, g3, ?_, hq⟩
      · intro x hx
        rcases g1 x hx with h | h
        · simp at h
        · exact h
      · simp only [Except.ok.injEq] at h
        rw [← h, e₂, g4]; simp

/-! ### The named series -/

/-- The comparison `name` = [a, b, op] is requested once: `a` and `b` name the series that have the values `pre`, `x`
or `y`, `post` of the series variables and the statistics `s₁` and `s₂`; further words of the texts are `extra`. -/
structure NamedCurve (c : AggConfig) (sp sq : List (String × List String)) (var : String) (vals pre post extra : List String)
    (x y s₁ s₂ a b op name : String) : Prop where
  series : c.series = sp ++ (var, vals) :: sq
  pre_values : List.Forall₂ (fun z q => z ∈ q.2) pre sp
  post_values : List.Forall₂ (fun z q => z ∈ q.2) post sq
  first_value : x ∈ vals
  second_value : y ∈ vals
  differ : x ≠ y ∨ sq = []
  first : SeriesText c a (pre ++ x :: post) extra s₁
  second : SeriesText c b (pre ++ y :: post) extra s₂
  stat : s₁ ≠ s₂ → (∀ q ∈ requestedValues c, derivedStat s₁ s₂ ∉ q.2) ∧ isDerivedPoint (some [derivedStat s₁ s₂]) = false
  requested : [a, b, op] ∈ c.derived
  named : getDerivedCurveName [a, b, op] = .ok name
  only : ∀ d ∈ c.derived, getDerivedCurveName d = .ok name → d = [a, b, op]

/-- The entry of the named curve. -/
theorem namedCurve_entry {c : AggConfig} {sp sq : List (String × List String)} {var : String}
    {vals pre post extra : List String} {x y s₁ s₂ a b op name : String}
    (H : NamedCurve c sp sq var vals pre post extra x y s₁ s₂ a b op name)
    (hdisj : (requestedValues c).Pairwise (fun p q => ∀ z ∈ p.2, z ∉ q.2)) :
    derivedEntry c [a, b, op] = .ok (name, ⟨pre ++ x :: post ++ extra ++ [s₁],
      pre ++ y :: post ++ extra ++ [s₂], op⟩, product ((derivedFields c var name (pre ++ x :: post ++ extra ++ [s₁])
        (pre ++ y :: post ++ extra ++ [s₂])).map Prod.snd)) := by
  obtain ⟨hser, hpre, hpost, hx, hy, hxy, ha, hb, hst, hd, hn, hname⟩ := H
  have hs₁ := ha.2.2.1
  have hvar : ∃ diff, firstDifference (spaceParts a) (spaceParts b) = .ok diff ∧ operationVar c.series diff = .ok var := by
    rw [spaceParts_eq ha, spaceParts_eq hb]
    have hself : (requestedValues c).Pairwise (fun p q => ∀ z ∈ p.2, z ∉ q.2) := hdisj
    unfold requestedValues at hself
    rw [hser, List.append_assoc, List.append_assoc, List.pairwise_append] at hself
    obtain ⟨-, h2, h3⟩ := hself
    by_cases hxy' : x = y
    · have hsq : sq = [] := hxy.resolve_left (fun hn => hn hxy')
      subst hxy'
      refine ⟨_, firstDifference_last _ s₁ s₂, ?_⟩
      have hlast : c.series.getLast? = some (var, vals) := by rw [hser, hsq]; simp
      unfold operationVar
      rw [hlast]
      split
      · next he => simp at he
      · next l hl =>
        obtain rfl : (var, vals) = l := by simpa using hl
        split
        · rfl
        · next p q hpq =>
          have hp : p = s₁ := by
            split at hpq
            · simp at hpq
            · simp at hpq; exact hpq.1.symm
          have : c.series.find? (fun w => decide (p ∈ w.2) && decide (q ∈ w.2)) = none := by
            rw [List.find?_eq_none]
            intro w hw hc
            rw [Bool.and_eq_true, decide_eq_true_iff] at hc
            have hd' := hdisj
            unfold requestedValues at hd'
            rw [List.pairwise_append] at hd'
            refine hd'.2.2 w (List.mem_append_left _ hw) ("stat_name", c.stats) (by simp) p hc.1 ?_
            rw [hp]; exact hs₁
          rw [this]
    · refine ⟨some (x, y), ?_, ?_⟩
      · have := firstDifference_split pre x y (post ++ extra ++ [s₁]) (post ++ extra ++ [s₂]) hxy'
        simpa using this
      · unfold operationVar
        have hf : c.series.find? (fun w => decide (x ∈ w.2) && decide (y ∈ w.2)) = some (var, vals) := by
          rw [hser, List.find?_append]
          have : sp.find? (fun w => decide (x ∈ w.2) && decide (y ∈ w.2)) = none := by
            rw [List.find?_eq_none]
            intro w hw hc
            rw [Bool.and_eq_true, decide_eq_true_iff] at hc
            exact h3 w hw (var, vals) (by simp) x hc.1 hx
          rw [this]
          simp [hx, hy]
        cases hl : c.series.getLast? with
        | none =>
          rw [List.getLast?_eq_none_iff] at hl
          rw [hl] at hser; simp at hser
        | some l =>
          show (match c.series.find? (fun w => decide (x ∈ w.2) && decide (y ∈ w.2)) with
            | some p => Except.ok p.1
            | none => Except.ok l.1) = Except.ok var
          rw [hf]
  obtain ⟨diff, hdiff, hopv⟩ := hvar
  rw [spaceParts_eq ha, spaceParts_eq hb] at hdiff
  unfold derivedEntry
  simp only [hopv, hn, bind, Except.bind, spaceParts_eq ha, spaceParts_eq hb, hdiff]
  rfl

/-- The independent value of a point: none, or one of those requested. -/
def IndyPart (c : AggConfig) (is : List String) : Prop := (c.indyVals = [] ∧ is = []) ∨ ∃ i ∈ c.indyVals, is = [i]

theorem indyPart_forall₂ {c : AggConfig} {is : List String} (his : IndyPart c is) :
    List.Forall₂ (fun z (q : String × List String) => z ∈ q.2) is
      (if c.indyVals = [] then [] else [(c.indyVar, c.indyVals)]) := by
  rcases his with ⟨h1, rfl⟩ | ⟨i, hi, rfl⟩
  · rw [if_pos h1]; exact .nil
  · rw [if_neg (List.ne_nil_of_mem hi)]; exact .cons hi .nil

theorem indyPart_of_forall₂ {c : AggConfig} {is : List String}
    (h : List.Forall₂ (fun z (q : String × List String) => z ∈ q.2) is
      (if c.indyVals = [] then [] else [(c.indyVar, c.indyVals)])) : IndyPart c is := by
  by_cases he : c.indyVals = []
  · rw [if_pos he] at h
    cases h
    exact Or.inl ⟨he, rfl⟩
  · rw [if_neg he] at h
    cases h with
    | cons hi hn => cases hn; exact Or.inr ⟨_, hi, rfl⟩

/-- The points of the named curve: one for every independent value. -/
theorem namedCurve_points {c : AggConfig} {sp sq : List (String × List String)} {var : String}
    {vals pre post extra : List String} {x y s₁ s₂ a b op name : String}
    (H : NamedCurve c sp sq var vals pre post extra x y s₁ s₂ a b op name) (hdist : FieldsDistinct c)
    (hkeys : (c.series.map Prod.fst).Nodup)
    (hdisj : (requestedValues c).Pairwise (fun p q => ∀ z ∈ p.2, z ∉ q.2)) (p : List String) :
    p ∈ product ((derivedFields c var name (pre ++ x :: post ++ extra ++ [s₁])
      (pre ++ y :: post ++ extra ++ [s₂])).map Prod.snd) ↔
    ∃ is, IndyPart c is ∧ p = pre ++ name :: post ++ is ++ [derivedStat s₁ s₂] := by
  obtain ⟨hser, hpre, hpost, hx, hy, hxy, ha, hb, hst, hd, hn, hname⟩ := H
  have hkeys' := hkeys
  rw [hser, List.map_append, List.map_cons] at hkeys'
  have hk := List.nodup_append.mp hkeys'
  have hk2 := List.nodup_cons.mp hk.2.1
  have l₁ : (pre ++ x :: post ++ extra ++ [s₁]).getLastD "" = s₁ := getLastD_snoc _ _ _
  have l₂ : (pre ++ y :: post ++ extra ++ [s₂]).getLastD "" = s₂ := getLastD_snoc _ _ _
  rw [mem_product, List.forall₂_map_right_iff, derivedFields_eq hdist, hser, List.map_append, List.map_cons, l₁, l₂]
  constructor
  · intro h
    obtain ⟨p₁, p₂, h1, h2, rfl⟩ := forall₂_split h
    obtain ⟨p₃, is, h3, h4, rfl⟩ := forall₂_split h1
    obtain ⟨p₄, p₅, h5, h6, rfl⟩ := forall₂_split h3
    refine ⟨is, indyPart_of_forall₂ h4, ?_⟩
    have e2 : p₂ = [derivedStat s₁ s₂] := by
      cases h2 with
      | cons hz hnil => cases hnil; exact congrArg (fun w => [w]) (List.mem_singleton.mp hz)
    rw [List.forall₂_map_right_iff] at h5
    cases h6 with
    | @cons n _ p₆ _ hn6 h6 =>
      rw [List.forall₂_map_right_iff] at h6
      have hnn : n = name := by simpa using hn6
      have hA : List.Forall₂ (fun z (q : String × List String) => z ∈ q.2 ∧
          z ∈ pre ++ x :: post ++ extra ++ [s₁]) p₄ sp := by
        refine forall₂_imp_mem h5 ?_
        intro z q hq hz
        have : q.1 ≠ var := fun e => hk.2.2 q.1 (List.mem_map_of_mem hq) var (by simp) e
        simpa [this] using hz
      have hB : List.Forall₂ (fun z (q : String × List String) => z ∈ q.2 ∧
          z ∈ pre ++ x :: post ++ extra ++ [s₁]) p₆ sq := by
        refine forall₂_imp_mem h6 ?_
        intro z q hq hz
        have : q.1 ≠ var := fun e => hk2.1 (List.mem_map.mpr ⟨q, hq, e⟩)
        simpa [this] using hz
      have hC : List.Forall₂ (fun z (q : String × List String) => z ∈ q.2 ∧
          z ∈ pre ++ x :: post ++ extra ++ [s₁]) (p₄ ++ x :: p₆) c.series := by
        rw [hser]
        exact forall₂_append' hA (.cons ⟨hx, by simp⟩ hB)
      have hD : List.Forall₂ (fun z (q : String × List String) => z ∈ q.2) (pre ++ x :: post) c.series := by
        rw [hser]
        exact forall₂_append' hpre (.cons hx hpost)
      have hpw : (c.series.map Prod.snd).Pairwise (fun a b => ∀ z ∈ a, z ∉ b) := by
        unfold requestedValues at hdisj
        rw [List.append_assoc, List.pairwise_append] at hdisj
        rw [List.pairwise_map]
        exact hdisj.1
      have hsub : ∀ w ∈ p₄ ++ x :: p₆, w ∈ pre ++ x :: post := by
        intro w hw
        obtain ⟨q, hq, hwq, hwin⟩ := forall₂_left_mem hC hw
        have hq' : q ∈ requestedValues c := List.mem_append_left _ (List.mem_append_left _ hq)
        have he : w ∉ extra := fun he => ha.2.2.2 w he q hq' hwq
        have hs : w ≠ s₁ := by
          rintro rfl
          unfold requestedValues at hdisj
          rw [List.pairwise_append] at hdisj
          exact hdisj.2.2 q (List.mem_append_left _ hq) ("stat_name", c.stats) (by simp) w hwq ha.2.2.1
        simp only [List.mem_append, List.mem_cons, List.not_mem_nil, or_false] at hwin ⊢
        tauto
      have hEq : p₄ ++ x :: p₆ = pre ++ x :: post :=
        product_unique hpw (List.forall₂_map_right_iff.mpr (forall₂_imp_mem hC (fun _ _ _ h => h.1)))
          (List.forall₂_map_right_iff.mpr hD) hsub
      have hlen : p₄.length = pre.length := hA.length_eq.trans hpre.length_eq.symm
      obtain ⟨e4, e6⟩ := List.append_inj hEq hlen
      simp only [List.cons.injEq, true_and] at e6
      rw [e2, e4, e6, hnn]
  · rintro ⟨is, his, rfl⟩
    have hIs := indyPart_forall₂ his
    refine forall₂_append' (forall₂_append' (forall₂_append' ?_ (.cons ?_ ?_)) hIs) (.cons ?_ .nil)
    · rw [List.forall₂_map_right_iff]
      refine forall₂_imp_mem (forall₂_with_mem hpre) ?_
      rintro z q hq ⟨hz, hzq⟩
      have : q.1 ≠ var := fun e => hk.2.2 q.1 (List.mem_map_of_mem hq) var (by simp) e
      simp [this, hzq, hz]
    · simp
    · rw [List.forall₂_map_right_iff]
      refine forall₂_imp_mem (forall₂_with_mem hpost) ?_
      rintro z q hq ⟨hz, hzq⟩
      have : q.1 ≠ var := fun e => hk2.1 (List.mem_map.mpr ⟨q, hq, e⟩)
      simp [this, hzq, hz]
    · exact List.mem_singleton.mpr rfl

/-- What is asked for in a series: the values of the series variables, the statistic and the independent value. -/
def seriesRequest (c : AggConfig) (vals : List String) (stat : String) (is : List String) : List (String × String) :=
  (c.series.map Prod.fst).zip vals ++ [("stat_name", stat)] ++ is.map (fun i => (c.indyVar, i))

theorem seriesRequest_eq {c : AggConfig} {vals : List String} {stat : String} {is : List String}
    (hv : vals.length = c.series.length) (his : IndyPart c is) :
    ((scoreValues c).map Prod.fst).zip (vals ++ [stat] ++ is) = seriesRequest c vals stat is := by
  unfold scoreValues seriesRequest
  rw [List.map_append, List.map_append, List.zip_append (by simp [hv]), List.zip_append (by simp [hv])]
  rcases his with ⟨h1, rfl⟩ | ⟨i, hi, rfl⟩
  · simp [h1]
  · simp [List.ne_nil_of_mem hi]

theorem mem_shape₅ {α : Type*} {w z n s d : α} {pre post extra is : List α}
    (h : w ∈ pre ++ z :: post ++ extra ++ [s] ∨ w ∈ pre ++ n :: post ++ is ++ [d]) (he : w ∉ extra) (hn : w ≠ n)
    (hd : w = d → w = s) : w ∈ pre ++ z :: post ++ [s] ++ is := by
  simp only [List.mem_append, List.mem_cons, List.not_mem_nil, or_false] at h ⊢
  tauto

theorem mem_shape₆ {α : Type*} {w z n s d : α} {pre post extra is : List α}
    (h : w ∈ pre ++ z :: post ++ [s] ++ is) :
    w ∈ pre ++ z :: post ++ extra ++ [s] ∨ w ∈ (pre ++ n :: post ++ is ++ [d]).tail :=
  mem_shape₃ (by simp only [List.mem_append, List.mem_cons, List.not_mem_nil, or_false] at h ⊢; tauto)

set_option maxHeartbeats 1000000 in
/-- The rows found for both series of the named curve. -/
theorem namedCurve_pair {c : AggConfig} {sp sq : List (String × List String)} {var : String}
    {vals pre post extra : List String} {x y s₁ s₂ a b op name : String}
    (H : NamedCurve c sp sq var vals pre post extra x y s₁ s₂ a b op name) (hdist : FieldsDistinct c)
    (hdisj : (requestedValues c).Pairwise (fun p q => ∀ z ∈ p.2, z ∉ q.2))
    (hv : ∀ q ∈ requestedValues c, ∀ v ∈ q.2, isDerivedPoint (some [v]) = false) {is : List String} (his : IndyPart c is)
    {f : Frame} {results : List (List String × List (List Val))}
    (hres : ∀ x ∈ results, x.1 ∈ scorePoints c ∧ pointRows f (((scoreFields c).map Prod.fst).zip x.1) none = .ok x.2)
    (hkey : ∀ p ∈ scorePoints c, ∃ x ∈ results, x.1 = p) :
    ∃ rows₁ rows₂, pointRows f (seriesRequest c (pre ++ x :: post) s₁ is) none = .ok rows₁ ∧
      pointRows f (seriesRequest c (pre ++ y :: post) s₂ is) none = .ok rows₂ ∧
      findPair (fullComponents [] (pre ++ x :: post ++ extra ++ [s₁]) (pre ++ name :: post ++ is ++ [derivedStat s₁ s₂]))
        (fullComponents [] (pre ++ y :: post ++ extra ++ [s₂]) (pre ++ name :: post ++ is ++ [derivedStat s₁ s₂]))
        results none none = (some rows₁, some rows₂) := by
  obtain ⟨hser, hpre, hpost, hx, hy, hxy, ha, hb, hst, hd, hn, hname⟩ := H
  have hnd : isDerivedPoint (some [name]) = true := derivedName_starts (by simp) hn
  have hnn : ∀ q ∈ requestedValues c, name ∉ q.2 := fun q hq hm => by
    rw [hv q hq name hm] at hnd; exact Bool.noConfusion hnd
  have hs₁ := ha.2.2.1
  have hs₂ := hb.2.2.1
  have hIs := indyPart_forall₂ his
  have hlen : ∀ z : String, (pre ++ z :: post).length = c.series.length := by
    intro z
    rw [hser]; simp [hpre.length_eq, hpost.length_eq]
  have hkeyOf : ∀ z ∈ vals, ∀ s ∈ c.stats,
      List.Forall₂ (fun w (q : String × List String) => w ∈ q.2) (pre ++ z :: post ++ [s] ++ is) (scoreValues c) := by
    intro z hz s hs
    unfold scoreValues
    rw [hser]
    exact forall₂_append' (forall₂_append' (forall₂_append' hpre (.cons hz hpost)) (.cons hs .nil)) hIs
  have hstat : ∀ q ∈ requestedValues c, derivedStat s₁ s₂ ∈ q.2 → s₁ = s₂ := by
    intro q hq hm
    by_contra hs
    exact (hst hs).1 q hq hm
  have hcomp : ∀ z ∈ vals, ∀ s, (s = s₁ ∨ s = s₂) → ∀ w, (w ∈ pre ++ z :: post ++ extra ++ [s] ∨
      w ∈ (pre ++ name :: post ++ is ++ [derivedStat s₁ s₂]).tail) → (∃ q ∈ requestedValues c, w ∈ q.2) →
      w ∈ pre ++ z :: post ++ [s] ++ is := by
    rintro z hz s hss w hw ⟨q, hq, hwq⟩
    have hw' : w ∈ pre ++ z :: post ++ extra ++ [s] ∨ w ∈ pre ++ name :: post ++ is ++ [derivedStat s₁ s₂] :=
      hw.imp id List.mem_of_mem_tail
    have he : w ∉ extra := fun he => ha.2.2.2 w he q hq hwq
    have hne' : w ≠ name := fun e => hnn q hq (e ▸ hwq)
    have hds : w = derivedStat s₁ s₂ → w = s := by
      intro e
      have := hstat q hq (e ▸ hwq)
      rw [e]; unfold derivedStat
      rw [if_pos this]
      rcases hss with rfl | rfl
      · rfl
      · exact this
    exact mem_shape₅ hw' he hne' hds
  have hpw : ((scoreValues c).map Prod.snd).Pairwise (fun a b => ∀ z ∈ a, z ∉ b) := by
    rw [List.pairwise_map]
    refine ((scoreValues_perm c).pairwise_iff ?_).mpr hdisj
    intro p q hpq z hzq hzp
    exact hpq z hzp hzq
  have huniq : ∀ z ∈ vals, ∀ s, (s = s₁ ∨ s = s₂) → ∀ k ∈ scorePoints c,
      (∀ w ∈ k, w ∈ fullComponents [] (pre ++ z :: post ++ extra ++ [s])
        (pre ++ name :: post ++ is ++ [derivedStat s₁ s₂])) → k = pre ++ z :: post ++ [s] ++ is := by
    intro z hz s hs k hk hsub
    have hk' := (mem_scorePoints hdist).mp hk
    have hsm : s ∈ c.stats := by rcases hs with rfl | rfl <;> assumption
    refine product_unique hpw (List.forall₂_map_right_iff.mpr hk')
      (List.forall₂_map_right_iff.mpr (hkeyOf z hz s hsm)) ?_
    intro w hw
    refine hcomp z hz s hs w ((mem_fullComponents [] _ _ (fun w _ => rfl) w).mp (hsub w hw)) ?_
    obtain ⟨q, hq, hwq⟩ := forall₂_left_mem hk' hw
    exact ⟨q, (scoreValues_perm c).mem_iff.mp hq, hwq⟩
  have hcontains : ∀ z s, ∀ w ∈ pre ++ z :: post ++ [s] ++ is,
      w ∈ fullComponents [] (pre ++ z :: post ++ extra ++ [s])
        (pre ++ name :: post ++ is ++ [derivedStat s₁ s₂]) := by
    intro z s w hw
    rw [mem_fullComponents [] _ _ (fun w _ => rfl)]
    exact mem_shape₆ hw
  have hr : ∀ z ∈ vals, ∀ s ∈ c.stats, ∃ r, pointRows f (seriesRequest c (pre ++ z :: post) s is) none = .ok r ∧
      (pre ++ z :: post ++ [s] ++ is, r) ∈ results := by
    intro z hz s hs
    obtain ⟨w, hw, e⟩ := hkey _ ((mem_scorePoints hdist).mpr (hkeyOf z hz s hs))
    obtain ⟨k, r⟩ := w
    simp only at e
    subst e
    have := (hres _ hw).2
    rw [scoreFields_eq hdist] at this
    simp only at this
    rw [seriesRequest_eq (hlen z) his] at this
    exact ⟨r, this, hw⟩
  obtain ⟨r₁, hr₁, hm₁⟩ := hr x hx s₁ hs₁
  obtain ⟨r₂, hr₂, hm₂⟩ := hr y hy s₂ hs₂
  have hsame : ∀ z ∈ vals, ∀ s, (s = s₁ ∨ s = s₂) → ∀ r,
      pointRows f (seriesRequest c (pre ++ z :: post) s is) none = .ok r → ∀ w ∈ results,
      (∀ u ∈ w.1, u ∈ fullComponents [] (pre ++ z :: post ++ extra ++ [s])
        (pre ++ name :: post ++ is ++ [derivedStat s₁ s₂])) → w.2 = r := by
    intro z hz s hs r hr w hw hsub
    have hk := huniq z hz s hs w.1 (hres w hw).1 hsub
    have h2 := (hres w hw).2
    rw [hk, scoreFields_eq hdist, seriesRequest_eq (hlen z) his, hr] at h2
    exact (Except.ok.inj h2).symm
  refine ⟨r₁, r₂, hr₁, hr₂, findPair_unique _ _ r₁ r₂ _ _ _ (hsame x hx s₁ (Or.inl rfl) r₁ hr₁)
    (hsame y hy s₂ (Or.inr rfl) r₂ hr₂) (Or.inr ⟨rfl, _, hm₁, hcontains x s₁⟩)
    (Or.inr ⟨rfl, _, hm₂, hcontains y s₂⟩)⟩

theorem checkScorecard_ok {cols : List String} {op : String} {rows₁ rows₂ : List (List Val)} {b : Bool}
    (h : checkScorecard cols op rows₁ rows₂ = .ok b) : b = !(rows₁.isEmpty || rows₂.isEmpty) := by
  unfold checkScorecard at h
  by_cases he : (rows₁.isEmpty || rows₂.isEmpty) = true
  · rw [he] at h ⊢
    simp [pure, Except.pure] at h
    simp [← h]
  · rw [Bool.eq_false_iff.mpr he] at h ⊢
    simp only [Bool.false_eq_true, if_false] at h
    by_cases hop : op ≠ "SINGLE"
    · simp only [hop, ne_eq, not_false_eq_true, if_true, bind, Except.bind] at h
      split at h
      · simp at h
      · simp [pure, Except.pure] at h; simp [← h]
    · simp only [hop, if_false] at h
      simp [pure, Except.pure, bind, Except.bind] at h
      simp [← h]

/-- What a run gives for one point of the named curve. -/
def PointOutcome (sig : List PyNum → List PyNum → Except PyErr PyNum) (f : Frame) (c : AggConfig) (cv : DerivedCurve)
    (name : String) (rows₁ rows₂ : List (List Val)) (o : Option (List (String × Val))) : Prop :=
  (o = none ∧ (rows₁ = [] ∨ rows₂ = [])) ∨
  ∃ r rest v row, rows₁ = r :: rest ∧ rows₂ ≠ [] ∧ scoreStat sig f cv.op rows₁ rows₂ = .ok v ∧
    scoreRow c f.cols cv name v r = .ok row ∧ o = some row

theorem scoreDerived_outcome {sig : List PyNum → List PyNum → Except PyErr PyNum} {f : Frame} {c : AggConfig}
    {curves : List (String × DerivedCurve)} {results : List (List String × List (List Val))} {p : List String}
    {cv : DerivedCurve} {name : String} {rows₁ rows₂ : List (List Val)} {o : Option (List (String × Val))}
    (hn : derivedNameOf p = name) (hc : curves.lookup name = some cv)
    (hp : findPair (fullComponents [] cv.first p) (fullComponents [] cv.second p) results none none =
      (some rows₁, some rows₂))
    (h : scoreDerived sig f c curves results p = .ok o) : PointOutcome sig f c cv name rows₁ rows₂ o := by
  unfold scoreDerived at h
  rw [hn, hc] at h
  simp only [hp] at h
  cases hk : checkScorecard f.cols cv.op rows₁ rows₂ with
  | error e => rw [hk] at h; simp [bind, Except.bind] at h
  | ok b =>
    rw [hk] at h
    simp only [bind, Except.bind] at h
    have hb := checkScorecard_ok hk
    cases b with
    | false =>
      simp only [Bool.false_eq_true, if_false, Except.ok.injEq] at h
      left
      refine ⟨h.symm, ?_⟩
      have : (rows₁.isEmpty || rows₂.isEmpty) = true := by
        rw [← Bool.not_eq_false', ← hb]
      rw [Bool.or_eq_true, List.isEmpty_iff, List.isEmpty_iff] at this
      exact this
    | true =>
      simp only [if_true] at h
      have : (rows₁.isEmpty || rows₂.isEmpty) = false := by
        rw [← Bool.not_eq_true', ← hb]
      rw [Bool.or_eq_false_iff] at this
      cases hs : scoreStat sig f cv.op rows₁ rows₂ with
      | error e => rw [hs] at h; simp at h
      | ok v =>
        rw [hs] at h
        simp only at h
        cases rows₁ with
        | nil => simp at this
        | cons r rest =>
          simp only at h
          cases hr : scoreRow c f.cols cv name v r with
          | error e => rw [hr] at h; simp at h
          | ok row =>
            rw [hr] at h
            simp only [Except.ok.injEq] at h
            exact Or.inr ⟨r, rest, v, row, rfl, by simpa using this.2, hs, hr, h.symm⟩

/-- A run and the named curve: for every independent value the outcome is found in the table, and a table of this
curve alone has nothing else. -/
theorem namedCurve_run {sig : List PyNum → List PyNum → Except PyErr PyNum} {f : Frame} {c : AggConfig}
    {out : List (List (String × Val))} {sp sq : List (String × List String)} {var : String}
    {vals pre post extra : List String} {x y s₁ s₂ a b op name : String}
    (H : NamedCurve c sp sq var vals pre post extra x y s₁ s₂ a b op name) (hne : f.rows ≠ [] ∧ f.cols ≠ [])
    (hdist : FieldsDistinct c) (hkeys : (c.series.map Prod.fst).Nodup)
    (hdisj : (requestedValues c).Pairwise (fun p q => ∀ z ∈ p.2, z ∉ q.2))
    (hv : ∀ q ∈ requestedValues c, ∀ v ∈ q.2, isDerivedPoint (some [v]) = false)
    (h : scorecard sig f c = .ok out) :
    (∀ is, IndyPart c is → ∃ rows₁ rows₂, pointRows f (seriesRequest c (pre ++ x :: post) s₁ is) none = .ok rows₁ ∧
      pointRows f (seriesRequest c (pre ++ y :: post) s₂ is) none = .ok rows₂ ∧
      ∃ o, PointOutcome sig f c ⟨pre ++ x :: post ++ extra ++ [s₁], pre ++ y :: post ++ extra ++ [s₂], op⟩ name
        rows₁ rows₂ o ∧ ∀ row, o = some row → row ∈ out) ∧
    (c.derived = [[a, b, op]] → ∀ row ∈ out, ∃ is, IndyPart c is ∧ ∃ rows₁ rows₂,
      pointRows f (seriesRequest c (pre ++ x :: post) s₁ is) none = .ok rows₁ ∧
      pointRows f (seriesRequest c (pre ++ y :: post) s₂ is) none = .ok rows₂ ∧
      PointOutcome sig f c ⟨pre ++ x :: post ++ extra ++ [s₁], pre ++ y :: post ++ extra ++ [s₂], op⟩ name
        rows₁ rows₂ (some row)) := by
  obtain ⟨entries, results, outs, hm, hres, hkey, hout, hder⟩ := scorecard_parts hne hdist hv h
  have hentry := namedCurve_entry H hdisj
  have hpoints := namedCurve_points H hdist hkeys hdisj
  have hmm := mapM_except_mem _ hm
  obtain ⟨e, he, hee⟩ := forall₂_left_mem hmm H.requested
  rw [hentry] at hee
  have hee' := (Except.ok.inj hee).symm
  have hcurve : (entries.foldl (fun d e => dictSet d e.1 e.2.1) []).lookup name =
      some (⟨pre ++ x :: post ++ extra ++ [s₁], pre ++ y :: post ++ extra ++ [s₂], op⟩ : DerivedCurve) := by
    have hfm : entries.foldl (fun d e => dictSet d e.1 e.2.1) [] =
        (entries.map (fun e => (e.1, e.2.1))).foldl (fun d e => dictSet d e.1 e.2) [] := by rw [List.foldl_map]
    rw [hfm]
    apply lookup_curves
    · intro w hw hwn
      obtain ⟨e', he', rfl⟩ := List.mem_map.mp hw
      obtain ⟨d', hd', hde⟩ := forall₂_right_mem hmm he'
      have := H.only d' hd' (by rw [(derivedEntry_points hdist hde).1]; exact congrArg _ hwn)
      subst this
      rw [hentry] at hde
      have := (Except.ok.inj hde)
      rw [← this]
    · left
      exact ⟨(e.1, e.2.1), List.mem_map.mpr ⟨e, he, rfl⟩, by rw [hee']⟩
  have hnd : isDerivedPoint (some [name]) = true := derivedName_starts (by simp) H.named
  have hnm : ∀ is, IndyPart c is → derivedNameOf (pre ++ name :: post ++ is ++ [derivedStat s₁ s₂]) = name := by
    intro is his
    have := derivedNameOf_eq pre (post ++ is ++ [derivedStat s₁ s₂]) name hnd (by
      intro z hz
      by_cases hzs : z = derivedStat s₁ s₂
      · by_cases hs : s₁ = s₂
        · rw [hzs]; unfold derivedStat; rw [if_pos hs]
          exact hv ("stat_name", c.stats) (by simp [requestedValues]) s₁ H.first.2.2.1
        · rw [hzs]; exact (H.stat hs).2
      · have hzk : z ∈ pre ++ x :: post ++ is ++ [s₁] := mem_shape₄ hz hzs
        have hkx : List.Forall₂ (fun w (q : String × List String) => w ∈ q.2) (pre ++ x :: post ++ is ++ [s₁])
            (requestedValues c) := by
          unfold requestedValues
          rw [H.series]
          exact forall₂_append' (forall₂_append' (forall₂_append' H.pre_values (.cons H.first_value H.post_values))
            (indyPart_forall₂ his)) (.cons H.first.2.2.1 .nil)
        obtain ⟨q, hq, hzq⟩ := forall₂_left_mem hkx hzk
        exact hv q hq z hzq)
    simpa using this
  constructor
  · intro is his
    obtain ⟨rows₁, rows₂, hr₁, hr₂, hpair⟩ := namedCurve_pair H hdist hdisj hv his hres hkey
    refine ⟨rows₁, rows₂, hr₁, hr₂, ?_⟩
    have hin : pre ++ name :: post ++ is ++ [derivedStat s₁ s₂] ∈ entries.flatMap (fun e => e.2.2) :=
      List.mem_flatMap.mpr ⟨e, he, by rw [hee']; exact (hpoints _).mpr ⟨is, his, rfl⟩⟩
    obtain ⟨o, ho, hod⟩ := forall₂_left_mem hder hin
    refine ⟨o, scoreDerived_outcome (hnm is his) hcurve hpair hod, ?_⟩
    rintro row rfl
    rw [hout]
    exact List.mem_flatMap.mpr ⟨_, ho, by simp⟩
  · intro hsingle row hrow
    rw [hout] at hrow
    obtain ⟨o, ho, hro⟩ := List.mem_flatMap.mp hrow
    obtain rfl : o = some row := by cases o <;> simp_all
    obtain ⟨p, hp, hpd⟩ := forall₂_right_mem hder ho
    obtain ⟨e', he', hpe⟩ := List.mem_flatMap.mp hp
    obtain ⟨d', hd', hde⟩ := forall₂_right_mem hmm he'
    rw [hsingle, List.mem_singleton] at hd'
    subst hd'
    rw [hentry] at hde
    rw [← Except.ok.inj hde] at hpe
    obtain ⟨is, his, rfl⟩ := (hpoints _).mp hpe
    obtain ⟨rows₁, rows₂, hr₁, hr₂, hpair⟩ := namedCurve_pair H hdist hdisj hv his hres hkey
    exact ⟨is, his, rows₁, rows₂, hr₁, hr₂, scoreDerived_outcome (hnm is his) hcurve hpair hpd⟩

/-! ### The row written -/

theorem lookup_filter_key {β : Type*} (l : List (String × β)) (P : String → Bool) (n : String) :
    (l.filter (fun p => P p.1)).lookup n = if P n = true then l.lookup n else none := by
  induction l with
  | nil => simp
  | cons p l ih =>
    obtain ⟨a, b⟩ := p
    rw [List.filter_cons]
    by_cases ha : P a = true
    · simp only [ha, if_true]
      rw [lookup_cons_if, lookup_cons_if, ih]
      by_cases hn : n = a
      · subst hn; simp [ha]
      · simp [hn]
    · simp only [ha, Bool.false_eq_true, if_false]
      rw [ih, lookup_cons_if]
      by_cases hn : n = a
      · subst hn; simp [ha]
      · simp [hn]

theorem lookup_zip_iff {f : Frame} {r : List Val} {n : String} {v : Val} :
    (f.cols.zip r).lookup n = some v ↔ HasCell f r n v := by
  unfold HasCell
  generalize f.cols = cols
  induction cols generalizing r with
  | nil => simp
  | cons a cols ih =>
    cases r with
    | nil => simp
    | cons b r =>
      rw [List.zip_cons_cons, lookup_cons_if]
      by_cases hn : n = a
      · subst hn
        simp only [if_true, Option.some.injEq]
        constructor
        · rintro rfl
          exact ⟨0, by simp, by simp, by simp⟩
        · rintro ⟨i, h1, h2, h3⟩
          cases i with
          | zero => simpa using h3
          | succ i => exact absurd (by simp) (h2 0 (by omega))
      · rw [if_neg hn, ih]
        constructor
        · rintro ⟨i, h1, h2, h3⟩
          refine ⟨i + 1, by simpa using h1, fun j hj => ?_, by simpa using h3⟩
          cases j with
          | zero => simpa using fun e => hn e.symm
          | succ j => simpa using h2 j (by omega)
        · rintro ⟨i, h1, h2, h3⟩
          cases i with
          | zero => simp at h1; exact absurd h1.symm hn
          | succ i =>
            exact ⟨i, by simpa using h1, fun j hj => by simpa using h2 (j + 1) (by omega), by simpa using h3⟩

theorem scoreRow_spec {c : AggConfig} {f : Frame} {cv : DerivedCurve} {name : String} {v : PyNum} {r : List Val}
    {row : List (String × Val)} (h : scoreRow c f.cols cv name v r = .ok row) :
    ∃ leads lead, c.series.lookup "fcst_lead" = some leads ∧
      ((∃ l ∈ leads, l ∈ cv.first) → lead ∈ leads ∧ lead ∈ cv.first) ∧ IsScoreRow f name lead v.val r row := by
  unfold scoreRow at h
  simp only at h
  split at h
  · next l leads hl hls =>
    simp only [Except.ok.injEq] at h
    refine ⟨leads, (match leads.reverse.find? (fun l => decide (l ∈ cv.first)) with
        | some l => l
        | none => l.text), hls, ?_, ?_⟩
    · rintro ⟨z, hz, hzf⟩
      cases hf : leads.reverse.find? (fun l => decide (l ∈ cv.first)) with
      | none =>
        rw [List.find?_eq_none] at hf
        exact absurd (by simpa using hzf) (hf z (by simpa using hz))
      | some w =>
        simp only
        exact ⟨by simpa using List.mem_of_find?_eq_some hf, by simpa using List.find?_some hf⟩
    · subst h
      have hlk : ∀ n, (dictSet ((f.cols.zip r).filter (fun p => decide (p.1 ∉ scoreRemoved))) "stat_value" v.val).lookup n =
          if n = "stat_value" then some v.val else if n ∉ scoreRemoved then (f.cols.zip r).lookup n else none := by
        intro n
        rw [dictSet_lookup, lookup_filter_key (P := fun n => decide (n ∉ scoreRemoved))]
        simp
      refine ⟨?_, ?_, ?_, ?_, ?_⟩
      · rw [dictSet_lookup, dictSet_lookup, hlk]; simp
      · rw [dictSet_lookup, dictSet_lookup]
        simp only [show ("fcst_lead" : String) ≠ "model" by decide, if_false, if_true]
        cases leads.reverse.find? (fun l => decide (l ∈ cv.first)) <;> rfl
      · rw [dictSet_lookup]; simp
      · intro n hn
        have h1 : n ≠ "model" := by rintro rfl; simp at hn
        have h2 : n ≠ "fcst_lead" := by rintro rfl; simp at hn
        have h3 : n ≠ "stat_value" := by rintro rfl; simp at hn
        rw [dictSet_lookup, dictSet_lookup, hlk, if_neg h1, if_neg h2, if_neg h3, if_neg]
        exact not_not.mpr hn
      · intro n w hn
        have h1 : n ≠ "model" := by rintro rfl; simp at hn
        have h2 : n ≠ "fcst_lead" := by rintro rfl; simp at hn
        have h3 : n ≠ "stat_value" := by rintro rfl; simp at hn
        have h4 : n ∉ scoreRemoved := by
          simp only [List.mem_cons, List.not_mem_nil, or_false, not_or] at hn
          simp only [scoreRemoved, List.mem_cons, List.not_mem_nil, or_false, not_or]
          tauto
        rw [dictSet_lookup, dictSet_lookup, hlk, if_neg h1, if_neg h2, if_neg h3, if_pos h4]
        exact lookup_zip_iff
  · simp at h

/-! ### The value -/

/-- The number in a cell. -/
def cellNumber : Val → ℚ
  | .num q _ => q
  | _ => 0

theorem numbersOf_map {f : Frame} {i : ℕ} (hi : f.idx? "stat_value" = some i) {rows : List (List Val)} {xs : List ℚ} :
    NumbersOf f rows xs ↔ xs = rows.map (fun r => cellNumber (cellAt r i)) ∧
      ∀ r ∈ rows, ∃ q t, r[i]? = some (.num q t) := by
  constructor
  · intro h
    induction h with
    | nil => simp
    | @cons r x rows xs hx _ ih =>
      obtain ⟨t, ht⟩ := hx
      have hc := (hasCell_iff hi _).mp ht
      refine ⟨?_, ?_⟩
      · rw [List.map_cons, ← ih.1, hasCell_unique hi ht]; rfl
      · intro r' hr'
        rcases List.mem_cons.mp hr' with rfl | hr'
        · exact ⟨x, t, hc⟩
        · exact ih.2 r' hr'
  · rintro ⟨rfl, h⟩
    induction rows with
    | nil => exact .nil
    | cons r rows ih =>
      refine .cons ?_ (ih (fun r' hr' => h r' (by simp [hr'])))
      obtain ⟨q, t, e⟩ := h r (by simp)
      refine ⟨t, (hasCell_iff hi _).mpr ?_⟩
      rw [e]
      simp [cellAt, e, cellNumber]

theorem mapM_except_map {α β : Type} (g : α → Except PyErr β) (k : α → β) :
    ∀ {l : List α}, (∀ x ∈ l, g x = .ok (k x)) → l.mapM g = .ok (l.map k) := by
  intro l
  induction l with
  | nil => intro _; rfl
  | cons a l ih =>
    intro h
    rw [List.mapM_cons, h a (by simp), ih (fun x hx => h x (by simp [hx]))]
    rfl

/-- The values of the rows in another order. -/
theorem statValues_perm {f : Frame} {rows a : List (List Val)} {xs : List ℚ} (hne : rows ≠ []) (h : NumbersOf f rows xs)
    (hp : a.Perm rows) : ∃ ys, ys.Perm xs ∧ NumbersOf f a ys ∧ statValues f a = .ok (ys.map PyNum.num) := by
  have hi : ∃ i, f.idx? "stat_value" = some i := by
    cases h with
    | nil => exact absurd rfl hne
    | cons hx _ =>
      obtain ⟨t, i, h1, -, -⟩ := hx
      exact Frame.idx?_of_mem (List.mem_of_getElem? h1)
  obtain ⟨i, hi⟩ := hi
  obtain ⟨rfl, hc⟩ := (numbersOf_map hi).mp h
  refine ⟨a.map (fun r => cellNumber (cellAt r i)), hp.map _, (numbersOf_map hi).mpr ⟨rfl, fun r hr =>
    hc r (hp.mem_iff.mp hr)⟩, ?_⟩
  unfold statValues Frame.col
  rw [hi]
  simp only [bind, Except.bind]
  rw [mapM_except_map (k := fun r => PyNum.num (cellNumber (cellAt r i))), List.map_map]
  · rfl
  · intro r hr
    obtain ⟨q, t, e⟩ := hc r (hp.mem_iff.mp hr)
    simp [cellAt, e, cellNumber]

theorem mapM_cell_num (l : List ℚ) : (l.map PyNum.num).mapM PyNum.cell = some l := by
  induction l with
  | nil => rfl
  | cons a l ih => rw [List.map_cons, List.mapM_cons, ih]; rfl

theorem statMean_num (l : List ℚ) : statMean (l.map PyNum.num) = .num (averageOf l) := by
  unfold statMean
  rw [mapM_cell_num]; rfl

theorem statMean_nan {l : List PyNum} (h : PyNum.nan ∈ l) : statMean l = .nan := by
  have : l.mapM PyNum.cell = none := by
    induction l with
    | nil => simp at h
    | cons a l ih =>
      rw [List.mapM_cons]
      rcases List.mem_cons.mp h with rfl | h
      · rfl
      · rw [ih h]; cases a.cell <;> rfl
  unfold statMean
  rw [this]

theorem contains_none_num (l : List ℚ) : (l.map PyNum.num).contains PyNum.none = false := by
  induction l with
  | nil => rfl
  | cons a l ih => rw [List.map_cons, List.contains_cons, ih]; rfl

theorem zipWith_num (l l' : List ℚ) : List.zipWith (PyNum.arith (· - ·)) (l.map .num) (l'.map .num) =
    (List.zipWith (· - ·) l l').map .num := by
  induction l generalizing l' with
  | nil => rfl
  | cons a l ih =>
    cases l' with
    | nil => rfl
    | cons b l' => simp only [List.map_cons, List.zipWith_cons_cons, ih]; rfl

theorem sum_zipWith_sub (l l' : List ℚ) (h : l.length = l'.length) :
    (List.zipWith (· - ·) l l').sum = l.sum - l'.sum := by
  induction l generalizing l' with
  | nil => cases l' with
    | nil => simp
    | cons b l' => simp at h
  | cons a l ih =>
    cases l' with
    | nil => simp at h
    | cons b l' =>
      simp only [List.zipWith_cons_cons, List.sum_cons]
      rw [ih l' (by simpa using h)]; ring

theorem sortData_total {f : Frame} {rows rows' a : List (List Val)} (h : sortData f rows = .ok a) :
    ∃ a', sortData f rows' = .ok a' := by
  unfold sortData at h ⊢
  cases hi : f.col (sortTime f.cols) with
  | error e => rw [hi] at h; simp [bind, Except.bind] at h
  | ok i =>
    cases hj : f.col "fcst_lead" with
    | error e => rw [hi, hj] at h; simp [bind, Except.bind] at h
    | ok j => exact ⟨_, rfl⟩

/-- Both series sorted, and their values. -/
theorem scoreStat_parts {sig : List PyNum → List PyNum → Except PyErr PyNum} {f : Frame} {op : String}
    {rows₁ rows₂ : List (List Val)} {v : PyNum} (h : scoreStat sig f op rows₁ rows₂ = .ok v) :
    ∃ a₁ a₂ v₁ v₂, sortData f rows₁ = .ok a₁ ∧ sortData f rows₂ = .ok a₂ ∧ statValues f a₁ = .ok v₁ ∧
      statValues f a₂ = .ok v₂ ∧
      (op = "DIFF_SIG" → sig v₁ v₂ = .ok v) ∧
      (op = "DIFF" → v₁.length = v₂.length ∧ v = statMean (List.zipWith (PyNum.arith (· - ·)) v₁ v₂)) ∧
      (op = "SINGLE" → v = statMean v₁) ∧
      (op ≠ "DIFF_SIG" → op ≠ "DIFF" → op ≠ "SINGLE" → v = .none) := by
  unfold scoreStat at h
  cases h1 : sortData f rows₁ with
  | error e => rw [h1] at h; simp [bind, Except.bind] at h
  | ok a₁ =>
    obtain ⟨a₂, h2⟩ := sortData_total (rows' := rows₂) h1
    rw [h1, h2] at h
    simp only [bind, Except.bind] at h
    cases h3 : statValues f a₁ with
    | error e => rw [h3] at h; simp at h
    | ok v₁ =>
      rw [h3] at h
      cases h4 : statValues f a₂ with
      | error e => rw [h4] at h; simp at h
      | ok v₂ =>
        rw [h4] at h
        simp only at h
        refine ⟨a₁, a₂, v₁, v₂, rfl, h2, h3, h4, ?_, ?_, ?_, ?_⟩
        · rintro rfl
          simpa using h
        · rintro rfl
          simp only [show ("DIFF" : String) ≠ "DIFF_SIG" by decide, if_false, if_true, calcDerivedCurveValue, true_or] at h
          by_cases hc : (v₁.contains PyNum.none || v₂.contains PyNum.none || v₁.length != v₂.length) = true
          · rw [if_pos hc] at h; simp at h
          · rw [if_neg hc] at h
            simp only [Except.ok.injEq] at h
            refine ⟨?_, h.symm⟩
            rw [Bool.not_eq_true, Bool.or_eq_false_iff] at hc
            simpa using hc.2
        · rintro rfl
          simp at h
          exact h.symm
        · intro g1 g2 g3
          simp [g1, g2, g3] at h
          exact h.symm

theorem nan_of_null {f : Frame} {rows a : List (List Val)} {v : List PyNum} (hp : a.Perm rows)
    (h : statValues f a = .ok v) (hn : ∃ r ∈ rows, HasCell f r "stat_value" .null) : PyNum.nan ∈ v := by
  obtain ⟨r, hr, hc⟩ := hn
  unfold statValues at h
  cases hi : f.col "stat_value" with
  | error e => rw [hi] at h; simp [bind, Except.bind] at h
  | ok i =>
    rw [hi] at h
    simp only [bind, Except.bind] at h
    have hf := mapM_forall₂ _ h
    obtain ⟨x, hx, e⟩ := forall₂_left_mem hf (hp.mem_iff.mpr hr)
    rw [hasCell_unique (col_ok hi) hc] at e
    simp only [Except.ok.injEq] at e
    rw [e]; exact hx

theorem nan_zipWith {g : ℚ → ℚ → ℚ} {l l' : List PyNum} (hl : l.length = l'.length)
    (h : PyNum.nan ∈ l ∨ PyNum.nan ∈ l') : PyNum.nan ∈ List.zipWith (PyNum.arith g) l l' := by
  induction l generalizing l' with
  | nil =>
    cases l' with
    | nil => simp at h
    | cons b l' => simp at hl
  | cons a l ih =>
    cases l' with
    | nil => simp at hl
    | cons b l' =>
      rw [List.zipWith_cons_cons]
      rcases h with h | h
      · rcases List.mem_cons.mp h with rfl | h
        · exact List.mem_cons.mpr (Or.inl (by cases b <;> rfl))
        · exact List.mem_cons_of_mem _ (ih (by simpa using hl) (Or.inl h))
      · rcases List.mem_cons.mp h with rfl | h
        · exact List.mem_cons.mpr (Or.inl (by cases a <;> rfl))
        · exact List.mem_cons_of_mem _ (ih (by simpa using hl) (Or.inr h))

theorem scoreStat_value {sig : List PyNum → List PyNum → Except PyErr PyNum} {f : Frame} {op : String}
    {rows₁ rows₂ : List (List Val)} {v : PyNum} (h₁ : rows₁ ≠ []) (h₂ : rows₂ ≠ [])
    (h : scoreStat sig f op rows₁ rows₂ = .ok v) : IsScoreValue sig f op rows₁ rows₂ v := by
  obtain ⟨a₁, a₂, v₁, v₂, hs₁, hs₂, hv₁, hv₂, hsig, hdiff, hsingle, hother⟩ := scoreStat_parts h
  obtain ⟨p₁, so₁⟩ := sortData_spec hs₁
  obtain ⟨p₂, so₂⟩ := sortData_spec hs₂
  refine ⟨?_, ?_, ?_, ?_, ?_, hother⟩
  · intro hop xs ys hx hy
    obtain ⟨hl, rfl⟩ := hdiff hop
    obtain ⟨xs', px, -, ex⟩ := statValues_perm h₁ hx p₁
    obtain ⟨ys', py, -, ey⟩ := statValues_perm h₂ hy p₂
    rw [hv₁] at ex
    rw [hv₂] at ey
    obtain rfl := Except.ok.inj ex
    obtain rfl := Except.ok.inj ey
    have hl' : xs'.length = ys'.length := by simpa using hl
    refine ⟨by rw [← px.length_eq, ← py.length_eq]; exact hl', ?_⟩
    rw [zipWith_num, statMean_num]
    unfold averageOf
    rw [sum_zipWith_sub _ _ hl', List.length_zipWith, ← hl', min_self, ← px.sum_eq, ← py.sum_eq, ← px.length_eq,
      ← py.length_eq, ← hl', sub_div]
  · intro hop hn
    obtain ⟨hl, rfl⟩ := hdiff hop
    apply statMean_nan
    apply nan_zipWith hl
    obtain ⟨r, hr, hc⟩ := hn
    rcases List.mem_append.mp hr with hr | hr
    · exact Or.inl (nan_of_null p₁ hv₁ ⟨r, hr, hc⟩)
    · exact Or.inr (nan_of_null p₂ hv₂ ⟨r, hr, hc⟩)
  · intro hop xs hx
    obtain rfl := hsingle hop
    obtain ⟨xs', px, -, ex⟩ := statValues_perm h₁ hx p₁
    rw [hv₁] at ex
    obtain rfl := Except.ok.inj ex
    rw [statMean_num]
    unfold averageOf
    rw [px.sum_eq, px.length_eq]
  · intro hop hn
    obtain rfl := hsingle hop
    rw [statMean_nan (nan_of_null p₁ hv₁ hn)]
  · intro hop xs ys hx hy
    obtain ⟨xs', px, nx, ex⟩ := statValues_perm h₁ hx p₁
    obtain ⟨ys', py, ny, ey⟩ := statValues_perm h₂ hy p₂
    rw [hv₁] at ex
    rw [hv₂] at ey
    obtain rfl := Except.ok.inj ex
    obtain rfl := Except.ok.inj ey
    exact ⟨a₁, a₂, xs', ys', p₁, p₂, fun hc => sorted_cases hs₁ hs₂ hc, nx, ny, hsig hop⟩

/-! ### C110, C111, C112 -/

open Classical in
/-- The row of a comparison at an independent value. -/
def RowFor (sig : List PyNum → List PyNum → Except PyErr PyNum) (f : Frame) (c : AggConfig) (op name : String)
    (vals : List String) (rows₁ rows₂ : List (List Val)) (row : List (String × Val)) : Prop :=
  ∃ r rest v leads lead, rows₁ = r :: rest ∧ c.series.lookup "fcst_lead" = some leads ∧ lead ∈ leads ∧ lead ∈ vals ∧
    IsScoreValue sig f op rows₁ rows₂ v ∧ IsScoreRow f name lead v.val r row

theorem rowFor_of_outcome {sig : List PyNum → List PyNum → Except PyErr PyNum} {f : Frame} {c : AggConfig}
    {sp sq : List (String × List String)} {var : String} {vals pre post extra : List String}
    {x y s₁ s₂ a b op name : String} (H : NamedCurve c sp sq var vals pre post extra x y s₁ s₂ a b op name)
    (hkeys : (c.series.map Prod.fst).Nodup)
    (hdisj : (requestedValues c).Pairwise (fun p q => ∀ z ∈ p.2, z ∉ q.2)) {rows₁ rows₂ : List (List Val)}
    {row : List (String × Val)}
    (h : PointOutcome sig f c ⟨pre ++ x :: post ++ extra ++ [s₁], pre ++ y :: post ++ extra ++ [s₂], op⟩ name
        rows₁ rows₂ (some row)) :
    rows₁ ≠ [] ∧ rows₂ ≠ [] ∧ RowFor sig f c op name (pre ++ x :: post) rows₁ rows₂ row := by
  rcases h with ⟨h, -⟩ | ⟨r, rest, v, row', e, h₂, hs, hr, ho⟩
  · simp at h
  · have h₁ : rows₁ ≠ [] := by rw [e]; simp
    obtain rfl := Option.some.inj ho
    obtain ⟨leads, lead, hlk, hl, hrow⟩ := scoreRow_spec hr
    have hmem := mem_of_lookup_some hlk
    have hf : List.Forall₂ (fun z (q : String × List String) => z ∈ q.2) (pre ++ x :: post) c.series := by
      rw [H.series]
      exact forall₂_append' H.pre_values (.cons H.first_value H.post_values)
    obtain ⟨z, hz, hzl⟩ := forall₂_right_mem hf hmem
    obtain ⟨g1, g2⟩ := hl ⟨z, hzl, by
      simp only [List.append_assoc, List.mem_append] at hz ⊢
      simp only [List.mem_append, List.mem_cons] at hz ⊢
      tauto⟩
    refine ⟨h₁, h₂, r, rest, v, leads, lead, e, hlk, g1, ?_, scoreStat_value h₁ h₂ hs, hrow⟩
    have hq' : ("fcst_lead", leads) ∈ requestedValues c := List.mem_append_left _ (List.mem_append_left _ hmem)
    have he : lead ∉ extra := fun he => H.first.2.2.2 lead he _ hq' g1
    have hs : lead ≠ s₁ := by
      intro e0
      unfold requestedValues at hdisj
      rw [List.pairwise_append] at hdisj
      exact hdisj.2.2 _ (List.mem_append_left _ hmem) ("stat_name", c.stats) (by simp) lead g1 (e0 ▸ H.first.2.2.1)
    simp only [List.mem_append, List.mem_cons, List.not_mem_nil, or_false] at g2 ⊢
    tauto

open Classical in
/-- C110 (partial): for a requested comparison of two series that differ in at most one variable (and possibly in the
statistic), when no two fields share a value: the scorecard has a row for every independent value at which both series
have input rows, with the name of the comparison, the lead and the other cells of the first series, and the value of the
requested operation; if it is the only comparison, there are no other rows. -/
theorem C110_rows_partial (sig : List PyNum → List PyNum → Except PyErr PyNum) (f : Frame) (c : AggConfig)
    (out : List (List (String × Val))) (hf : FrameWF f) (hne : f.rows ≠ [] ∧ f.cols ≠ []) (hdist : FieldsDistinct c)
    (hkeys : (c.series.map Prod.fst).Nodup)
    (hdisj : (requestedValues c).Pairwise (fun p q => ∀ z ∈ p.2, z ∉ q.2))
    (hv : ∀ q ∈ requestedValues c, ∀ v ∈ q.2, (∃ vals, StandsFor v vals) ∧ isDerivedPoint (some [v]) = false)
    (sp sq : List (String × List String)) (var : String) (vals pre post extra : List String)
    (x y s₁ s₂ a b op name : String) (H : NamedCurve c sp sq var vals pre post extra x y s₁ s₂ a b op name)
    (R : List String → String → List String → List (List Val))
    (hR : ∀ vals s is, R vals s is = f.rows.filter (fun r => decide (RowOf f (seriesRequest c vals s is) none r)))
    (h : scorecard sig f c = .ok out) :
    (∀ is, IndyPart c is → R (pre ++ x :: post) s₁ is ≠ [] → R (pre ++ y :: post) s₂ is ≠ [] →
      ∃ row ∈ out, RowFor sig f c op name (pre ++ x :: post) (R (pre ++ x :: post) s₁ is) (R (pre ++ y :: post) s₂ is)
        row) ∧
    (c.derived = [[a, b, op]] → ∀ row ∈ out, ∃ is, IndyPart c is ∧ R (pre ++ x :: post) s₁ is ≠ [] ∧
      R (pre ++ y :: post) s₂ is ≠ [] ∧
      RowFor sig f c op name (pre ++ x :: post) (R (pre ++ x :: post) s₁ is) (R (pre ++ y :: post) s₂ is) row) := by
  obtain ⟨hA, hB⟩ := namedCurve_run H hne hdist hkeys hdisj (fun q hq v hm => (hv q hq v hm).2) h
  have hrows : ∀ z ∈ vals, ∀ s ∈ c.stats, ∀ is, IndyPart c is → ∀ rows,
      pointRows f (seriesRequest c (pre ++ z :: post) s is) none = .ok rows → rows = R (pre ++ z :: post) s is := by
    intro z hz s hs is his rows hr
    have hreq : ∀ q ∈ seriesRequest c (pre ++ z :: post) s is, ∃ vals, StandsFor q.2 vals := by
      have hk : List.Forall₂ (fun w (q : String × List String) => w ∈ q.2) (pre ++ z :: post ++ [s] ++ is)
          (scoreValues c) := by
        unfold scoreValues
        rw [H.series]
        exact forall₂_append' (forall₂_append' (forall₂_append' H.pre_values (.cons hz H.post_values))
          (.cons hs .nil)) (indyPart_forall₂ his)
      intro q hq
      rw [← seriesRequest_eq (by rw [H.series]; simp [H.pre_values.length_eq, H.post_values.length_eq]) his] at hq
      obtain ⟨w, hw, hx⟩ := forall₂_left_mem hk (List.of_mem_zip hq).2
      exact (hv w ((scoreValues_perm c).mem_iff.mp hw) _ hx).1
    unfold pointRows at hr
    split at hr
    · simp at hr
    · simp only [Except.ok.injEq] at hr
      rw [← hr, hR]
      apply List.filter_congr
      intro r hr
      rw [Bool.eq_iff_iff, decide_eq_true_iff]
      exact pointFilters_iff hf hreq hr
  constructor
  · intro is his h1 h2
    obtain ⟨rows₁, rows₂, e₁, e₂, o, ho, hout⟩ := hA is his
    have e₁' := hrows x H.first_value s₁ H.first.2.2.1 is his _ e₁
    have e₂' := hrows y H.second_value s₂ H.second.2.2.1 is his _ e₂
    subst e₁' e₂'
    cases o with
    | none =>
      rcases ho with ⟨-, h | h⟩ | ⟨_, _, _, _, _, _, _, _, h⟩
      · exact absurd h h1
      · exact absurd h h2
      · simp at h
    | some row => exact ⟨row, hout row rfl, (rowFor_of_outcome H hkeys hdisj ho).2.2⟩
  · intro hsingle row hrow
    obtain ⟨is, his, rows₁, rows₂, e₁, e₂, ho⟩ := hB hsingle row hrow
    have e₁' := hrows x H.first_value s₁ H.first.2.2.1 is his _ e₁
    have e₂' := hrows y H.second_value s₂ H.second.2.2.1 is his _ e₂
    subst e₁' e₂'
    exact ⟨is, his, rowFor_of_outcome H hkeys hdisj ho⟩

theorem bind_ok_parts {α β : Type} {x : Except PyErr α} {g : α → Except PyErr β} {b : β} (h : (x >>= g) = .ok b) :
    ∃ a, x = .ok a ∧ g a = .ok b := by
  cases x with
  | error e => simp [bind, Except.bind] at h
  | ok a => exact ⟨a, rfl, h⟩

/-- C110 (extent): unless the lead is a series variable the scorecard has no rows at all: a run with a comparison that has
data fails, whatever else is asked for. -/
theorem C110_lead_required (sig : List PyNum → List PyNum → Except PyErr PyNum) (f : Frame) (c : AggConfig)
    (out : List (List (String × Val))) (hl : ∀ leads, ("fcst_lead", leads) ∉ c.series) (h : scorecard sig f c = .ok out) :
    out = [] := by
  have hlk : c.series.lookup "fcst_lead" = none := by
    cases hc : c.series.lookup "fcst_lead" with
    | none => rfl
    | some leads => exact absurd (mem_of_lookup_some hc) (hl leads)
  unfold scorecard at h
  split at h
  · exact (Except.ok.inj h).symm
  · obtain ⟨entries, -, h⟩ := bind_ok_parts h
    obtain ⟨st, hst, h⟩ := bind_ok_parts h
    have := foldlM_inv (fun st : ScoreState => st.out = []) _ _ _ _ ?_ rfl hst
    · exact (Except.ok.inj h) ▸ this
    · intro s p s' _ hs hstep
      cases hd : isDerivedPoint (some p) with
      | false =>
        obtain ⟨rows, -, -, h2⟩ := scoreStep_plain hd hstep
        rw [h2, hs]
      | true =>
        obtain ⟨o, ho, -, h2⟩ := scoreStep_derived hd hstep
        rw [h2, hs, List.nil_append]
        cases o with
        | none => rfl
        | some row =>
          exfalso
          unfold scoreDerived at ho
          split at ho
          · simp at ho
          · split at ho
            · obtain ⟨b, -, ho⟩ := bind_ok_parts ho
              split at ho
              · obtain ⟨v, -, ho⟩ := bind_ok_parts ho
                split at ho
                · simp at ho
                · obtain ⟨row', hr, -⟩ := bind_ok_parts ho
                  unfold scoreRow at hr
                  simp only [hlk] at hr
                  split at hr
                  · next h0 => simp at h0
                  · simp at hr
              · simp at ho
            · simp at ho

/-- C111: the value of a comparison of two series with data: for DIFF the difference of their means, for SINGLE the mean of
the first, missing when a value is missing. -/
theorem C111_means (sig : List PyNum → List PyNum → Except PyErr PyNum) (f : Frame) (op : String)
    (rows₁ rows₂ : List (List Val)) (v : PyNum) (h₁ : rows₁ ≠ []) (h₂ : rows₂ ≠ [])
    (h : scoreStat sig f op rows₁ rows₂ = .ok v) :
    (op = "DIFF" → ∀ xs ys, NumbersOf f rows₁ xs → NumbersOf f rows₂ ys →
      v = .num (xs.sum / xs.length - ys.sum / ys.length)) ∧
    (op = "SINGLE" → ∀ xs, NumbersOf f rows₁ xs → v = .num (xs.sum / xs.length)) ∧
    (op = "DIFF" → (∃ r ∈ rows₁ ++ rows₂, HasCell f r "stat_value" .null) → v = .nan) ∧
    (op = "SINGLE" → (∃ r ∈ rows₁, HasCell f r "stat_value" .null) → v = .nan) := by
  obtain ⟨g1, g2, g3, g4, -, -⟩ := scoreStat_value h₁ h₂ h
  exact ⟨fun ho xs ys hx hy => (g1 ho xs ys hx hy).2, g3, g2, g4⟩

/-- C112 (partial): the significance is that of the values of both series in an order in which the cases agree, when both
series have the same cases. -/
theorem C112_pairs_partial (sig : List PyNum → List PyNum → Except PyErr PyNum) (f : Frame)
    (rows₁ rows₂ : List (List Val)) (v : PyNum) (h₁ : rows₁ ≠ []) (h₂ : rows₂ ≠ [])
    (hc : (rows₁.map (caseOf f)).Perm (rows₂.map (caseOf f))) (xs ys : List ℚ) (hx : NumbersOf f rows₁ xs)
    (hy : NumbersOf f rows₂ ys) (h : scoreStat sig f "DIFF_SIG" rows₁ rows₂ = .ok v) :
    ∃ a₁ a₂ xs' ys', a₁.Perm rows₁ ∧ a₂.Perm rows₂ ∧ a₁.map (caseOf f) = a₂.map (caseOf f) ∧ NumbersOf f a₁ xs' ∧
      NumbersOf f a₂ ys' ∧ sig (xs'.map .num) (ys'.map .num) = .ok v := by
  obtain ⟨-, -, -, -, g5, -⟩ := scoreStat_value h₁ h₂ h
  obtain ⟨a₁, a₂, xs', ys', q1, q2, q3, q4, q5, q6⟩ := g5 rfl xs ys hx hy
  exact ⟨a₁, a₂, xs', ys', q1, q2, q3 hc, q4, q5, q6⟩

/-- C111: two series with different numbers of rows have no difference of means: the run fails with a TypeError (when the
column of the values, the time and the lead exist). -/
theorem C111_unequal_counts (sig : List PyNum → List PyNum → Except PyErr PyNum) (f : Frame) (rows₁ rows₂ : List (List Val))
    (xs ys : List ℚ) (h₁ : rows₁ ≠ []) (h₂ : rows₂ ≠ []) (hx : NumbersOf f rows₁ xs) (hy : NumbersOf f rows₂ ys)
    (ht : timeColumn f ∈ f.cols) (hlead : "fcst_lead" ∈ f.cols) (hl : rows₁.length ≠ rows₂.length) :
    scoreStat sig f "DIFF" rows₁ rows₂ = .error .typeError := by
  have hsd : ∃ a, sortData f rows₁ = .ok a := by
    have hcol : ∀ n ∈ f.cols, ∃ i, f.col n = .ok i := by
      intro n hn
      unfold Frame.col
      cases hi : f.idx? n with
      | none => exact absurd hn (Frame.idx?_eq_none.mp hi)
      | some i => exact ⟨i, rfl⟩
    obtain ⟨i, hi⟩ := hcol _ ht
    obtain ⟨j, hj⟩ := hcol _ hlead
    unfold sortData
    rw [sortTime_eq, hi, hj]
    exact ⟨_, rfl⟩
  obtain ⟨a₁, e₁⟩ := hsd
  obtain ⟨a₂, e₂⟩ := sortData_total (rows' := rows₂) e₁
  obtain ⟨p₁, -⟩ := sortData_spec e₁
  obtain ⟨p₂, -⟩ := sortData_spec e₂
  obtain ⟨xs', px, nx, ex⟩ := statValues_perm h₁ hx p₁
  obtain ⟨ys', py, ny, ey⟩ := statValues_perm h₂ hy p₂
  unfold scoreStat
  rw [e₁, e₂]
  simp only [bind, Except.bind, ex, ey]
  have hlen : xs'.length ≠ ys'.length := by
    have g1 := nx.length_eq
    have g2 := ny.length_eq
    rw [p₁.length_eq] at g1
    rw [p₂.length_eq] at g2
    omega
  have : ((xs'.map PyNum.num).contains PyNum.none || (ys'.map PyNum.num).contains PyNum.none ||
      (xs'.map PyNum.num).length != (ys'.map PyNum.num).length) = true := by
    rw [Bool.or_eq_true]
    right
    simpa using hlen
  simp only [show ("DIFF" : String) ≠ "DIFF_SIG" by decide, if_false, if_true, calcDerivedCurveValue, true_or, this]

/-! ### Examples and counterexamples -/

/-- Two models at two times in two regions, lead 12. -/
def scoreFrame : Frame :=
  { cols := ["model", "vx_mask", "fcst_lead", "fcst_valid_beg", "stat_name", "stat_value", "stat_ncl"]
    rows := [[.str "A", .str "X", .num 12 "12", .str "t1", .str "ME", .num 5 "5", .null],
             [.str "A", .str "X", .num 12 "12", .str "t2", .str "ME", .num 8 "8", .null],
             [.str "B", .str "X", .num 12 "12", .str "t2", .str "ME", .num 1 "1", .null],
             [.str "B", .str "X", .num 12 "12", .str "t1", .str "ME", .num 2 "2", .null],
             [.str "B", .str "Y", .num 12 "12", .str "t1", .str "ME", .num 20 "20", .null],
             [.str "B", .str "Y", .num 12 "12", .str "t3", .str "ME", .num 30 "30", .null],
             [.str "C", .str "X", .num 12 "12", .str "t1", .str "ME", .num 2 "2", .null],
             [.str "C", .str "X", .num 12 "12", .str "t1", .str "ME", .num 3 "3", .null]] }

/-- The scorecard of one comparison. -/
def scoreConfig (d : List String) : AggConfig :=
  { series := [("model", ["A", "B", "C"]), ("vx_mask", ["X", "Y"]), ("fcst_lead", ["12"])], indyVar := "", indyVals := [],
    stats := ["ME"], derived := [d], fcstVars := [], groups := [] }

/-- A significance that shows what it is given: the sum of the products of the pairs. -/
def sumProducts (a b : List PyNum) : Except PyErr PyNum :=
  .ok (.num (List.zipWith (fun x y => match x, y with | .num p, .num q => p * q | _, _ => 0) a b).sum)

theorem scoreConfig_run : scorecard sumProducts scoreFrame (scoreConfig ["A X 12 ME", "B X 12 ME", "DIFF"]) = .ok
    [[("model", .str "DIFF(A X 12 ME-B X 12 ME)"), ("vx_mask", .str "X"), ("fcst_lead", .str "12"), ("stat_name", .str "ME"),
      ("stat_value", .num 5 "")]] := by decide +kernel

theorem scoreConfig_curve : NamedCurve (scoreConfig ["A X 12 ME", "B X 12 ME", "DIFF"]) [] [("vx_mask", ["X", "Y"]),
    ("fcst_lead", ["12"])] "model" ["A", "B", "C"] [] ["X", "12"] [] "A" "B" "ME" "ME" "A X 12 ME" "B X 12 ME" "DIFF"
    "DIFF(A X 12 ME-B X 12 ME)" where
  series := rfl
  pre_values := .nil
  post_values := .cons (by decide) (.cons (by decide) .nil)
  first_value := by decide
  second_value := by decide
  differ := by decide
  first := by unfold SeriesText; decide +kernel
  second := by unfold SeriesText; decide +kernel
  stat := fun h => absurd rfl h
  requested := by decide
  named := by decide +kernel
  only := by intro d hd _; simpa [scoreConfig] using hd

open Classical in
/-- C110 (example): the hypotheses hold for the difference of both models in region X. -/
example := C110_rows_partial sumProducts scoreFrame (scoreConfig ["A X 12 ME", "B X 12 ME", "DIFF"]) _
  (by unfold FrameWF; decide) (by decide) (by unfold FieldsDistinct; decide) (by decide) (by decide)
  (by
    rintro q hq v hm
    have : v ∈ ["A", "B", "C", "X", "Y", "12", "ME"] := by
      simp only [requestedValues, scoreConfig, List.append_nil, List.cons_append, List.nil_append, List.mem_cons,
        List.not_mem_nil, or_false, if_true] at hq
      rcases hq with rfl | rfl | rfl | rfl <;> simp only [List.mem_cons, List.not_mem_nil, or_false] at hm ⊢ <;> tauto
    clear hm hq q
    refine ⟨⟨_, standsFor_self ?_ ?_⟩, ?_⟩ <;> (revert v; decide +kernel))
  [] [("vx_mask", ["X", "Y"]), ("fcst_lead", ["12"])] "model" ["A", "B", "C"] [] ["X", "12"] [] "A" "B" "ME" "ME"
  "A X 12 ME" "B X 12 ME" "DIFF" "DIFF(A X 12 ME-B X 12 ME)" scoreConfig_curve _ (fun _ _ _ => rfl) scoreConfig_run

/-- C110 (counterexample): the comparison of model A in region X with model B in region Y (means 13/2 and 25) is written
with the difference 5 of both models in region X. -/
theorem C110_two_variables_counterexample :
    scorecard sumProducts scoreFrame (scoreConfig ["A X 12 ME", "B Y 12 ME", "DIFF"]) = .ok
    [[("model", .str "DIFF(A X 12 ME-B Y 12 ME)"), ("vx_mask", .str "X"), ("fcst_lead", .str "12"), ("stat_name", .str "ME"),
      ("stat_value", .num 5 "")]] := by decide +kernel

/-- C110 (counterexample): the same scorecard with the lead as the independent variable fails. -/
theorem C110_lead_counterexample : scorecard sumProducts scoreFrame
    { series := [("model", ["A", "B"]), ("vx_mask", ["X"])], indyVar := "fcst_lead", indyVals := ["12"],
      stats := ["ME"], derived := [["A X ME", "B X ME", "DIFF"]], fcstVars := [], groups := [] } =
    .error .keyError := by decide +kernel

theorem scoreFrame_numbers : NumbersOf scoreFrame (scoreFrame.rows.take 2) [5, 8] ∧
    NumbersOf scoreFrame ((scoreFrame.rows.drop 2).take 2) [1, 2] ∧
    NumbersOf scoreFrame ((scoreFrame.rows.drop 2).take 1) [1] := by
  have hi : scoreFrame.idx? "stat_value" = some 5 := by decide
  rw [numbersOf_map hi, numbersOf_map hi, numbersOf_map hi]
  refine ⟨⟨by decide +kernel, ?_⟩, ⟨by decide +kernel, ?_⟩, ⟨by decide +kernel, ?_⟩⟩ <;> simp [scoreFrame]

/-- C111 (example): the difference of the means 13/2 and 3/2. -/
example : (.num 5 : PyNum) = .num (([5, 8] : List ℚ).sum / 2 - ([1, 2] : List ℚ).sum / 2) :=
  (C111_means sumProducts scoreFrame "DIFF" (scoreFrame.rows.take 2) ((scoreFrame.rows.drop 2).take 2) (.num 5) (by decide)
    (by decide) (by decide +kernel)).1 rfl [5, 8] [1, 2] scoreFrame_numbers.1 scoreFrame_numbers.2.1

/-- C111 (example): two values against one. -/
example : scoreStat sumProducts scoreFrame "DIFF" (scoreFrame.rows.take 2) ((scoreFrame.rows.drop 2).take 1) =
    .error .typeError :=
  C111_unequal_counts sumProducts scoreFrame _ _ [5, 8] [1] (by decide) (by decide) scoreFrame_numbers.1
    scoreFrame_numbers.2.2 (by decide +kernel) (by decide) (by decide)

/-- C112 (example): the hypotheses hold for both models in region X. -/
example := C112_pairs_partial sumProducts scoreFrame (scoreFrame.rows.take 2) ((scoreFrame.rows.drop 2).take 2) (.num 18)
  (by decide) (by decide) (by decide +kernel) [5, 8] [1, 2] scoreFrame_numbers.1 scoreFrame_numbers.2.1 (by decide +kernel)

/-- C112 (example): values paired by time although the rows are not in the same order: 5 * 2 + 8 * 1. -/
theorem scoreConfig_sig_run :
    scorecard sumProducts scoreFrame (scoreConfig ["A X 12 ME", "B X 12 ME", "DIFF_SIG"]) = .ok
    [[("model", .str "DIFF_SIG(A X 12 ME-B X 12 ME)"), ("vx_mask", .str "X"), ("fcst_lead", .str "12"),
      ("stat_name", .str "ME"), ("stat_value", .num 18 "")]] := by decide +kernel

/-- C112 (counterexample): the second series has two values at one time and none at the other; it is accepted and its
values are paired with those of the times t1 and t2. -/
theorem C112_unpaired_counterexample :
    scorecard sumProducts scoreFrame (scoreConfig ["A X 12 ME", "C X 12 ME", "DIFF_SIG"]) = .ok
    [[("model", .str "DIFF_SIG(A X 12 ME-C X 12 ME)"), ("vx_mask", .str "X"), ("fcst_lead", .str "12"),
      ("stat_name", .str "ME"), ("stat_value", .num 34 "")]] := by decide +kernel

/-- C112 (counterexample): compared the other way round the same data are refused. -/
theorem C112_swapped_counterexample :
    scorecard sumProducts scoreFrame (scoreConfig ["C X 12 ME", "A X 12 ME", "DIFF_SIG"]) = .error .nameError := by
  decide +kernel

end Metcalcpy.Props
