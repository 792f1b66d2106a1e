/-
C176  Blocks are sequences of whole groups, close in time and overlapping in space.
C177  The result of run_Calc_Blocks is 0 or 1, and 1 only at grouped blocked longitudes.
-/
import Verif.Lemmas.SplitGroups
import Verif.Lemmas.TrackBlocks

namespace Metcalcpy.Props
open Metcalcpy Spec

theorem giblDays_mem (g : List (List (List ℚ))) (x : GiblDay) : x ∈ giblDays g ↔ DayAt g x.year x.day x.row := by
  unfold giblDays DayAt
  rw [List.mem_flatMap]
  constructor
  · rintro ⟨⟨yr, y⟩, h1, h2⟩
    rw [List.mem_map] at h2
    obtain ⟨⟨a, d⟩, h3, rfl⟩ := h2
    exact ⟨yr, List.mk_mem_zipIdx_iff_getElem?.mp h1, List.mk_mem_zipIdx_iff_getElem?.mp h3⟩
  · rintro ⟨yr, h1, h2⟩
    refine ⟨(yr, x.year), List.mk_mem_zipIdx_iff_getElem?.mpr h1, ?_⟩
    rw [List.mem_map]
    exact ⟨(x.row, x.day), List.mk_mem_zipIdx_iff_getElem?.mpr h2, rfl⟩

theorem zipIdx_increasing {α : Type} (l : List α) : l.zipIdx.Pairwise (fun p q => p.2 < q.2) := by
  have h : (l.zipIdx.map Prod.snd).Pairwise (· < ·) := by
    rw [List.zipIdx_map_snd]
    exact List.pairwise_lt_range'
  rwa [List.pairwise_map] at h

/-- Earlier in the storage order. -/
def DayLt (x x' : GiblDay) : Prop := x.year < x'.year ∨ (x.year = x'.year ∧ x.day < x'.day)

theorem giblDays_increasing (g : List (List (List ℚ))) : (giblDays g).Pairwise DayLt := by
  unfold giblDays
  rw [List.pairwise_flatMap]
  constructor
  · rintro ⟨yr, y⟩ _
    rw [List.pairwise_map]
    exact (zipIdx_increasing yr).imp fun h => Or.inr ⟨rfl, h⟩
  · refine (zipIdx_increasing g).imp ?_
    rintro ⟨yr, y⟩ ⟨yr', y'⟩ h x hx x' hx'
    obtain ⟨_, _, rfl⟩ := List.mem_map.mp hx
    obtain ⟨_, _, rfl⟩ := List.mem_map.mp hx'
    exact Or.inl h

theorem dayGroups_mem {crit : ℕ} {d x : GiblDay} (hd : GoodDay crit d.row) (hx : x ∈ dayGroups d) :
    x.year = d.year ∧ x.day = d.day ∧ ∃ s n, IsRun d.row s n ∧ n < 360 ∧ x.row = runRow s n := by
  unfold dayGroups at hx
  obtain ⟨e, he, rfl⟩ := List.mem_map.mp hx
  obtain ⟨h1, h2, h3⟩ := (rowEnds_mem d.row e).mp he
  have hr := run_of_end d.row hd.length hd.free e h2 h3
  have hlt := (counts_circ d.row hd.length hd.free).lt e
  rw [around360_nat _ h1] at hr hlt
  exact ⟨rfl, rfl, _, _, hr, hlt, endRow_eq_runRow e _ h1 hr.pos hlt⟩

theorem dayGroups_of_run {crit : ℕ} {d : GiblDay} (hd : GoodDay crit d.row) {s n : ℕ} (hr : IsRun d.row s n) :
    { d with row := runRow s n } ∈ dayGroups d := by
  obtain ⟨h1, h2⟩ := end_of_run d.row hd.length hd.free s n hr
  have hpos := hr.pos
  have hs := hr.start
  have hlt : n < 360 := by
    have := (counts_circ d.row hd.length hd.free).lt ((s : ℤ) + n - 1)
    omega
  set e : ℕ := (s + n - 1) % 360 with he
  have ee : ∀ w : ℤ, around360 (runCounts d.row) ((e : ℤ) + w) = around360 (runCounts d.row) ((s : ℤ) + n - 1 + w) := fun w => by
    unfold around360
    rw [show ((e : ℤ) + w) % 360 = ((s : ℤ) + n - 1 + w) % 360 by omega]
  have e0 : around360 (runCounts d.row) (e : ℤ) = n := by
    have := ee 0
    simp only [add_zero] at this
    rw [this, h1]
  have hm : e ∈ rowEnds d.row := by
    rw [rowEnds_mem]
    exact ⟨by omega, by rw [e0]; omega, by rw [ee 1, h2]⟩
  unfold dayGroups
  rw [List.mem_map]
  refine ⟨e, hm, ?_⟩
  rw [around360_nat _ (by omega : e < 360)] at e0
  rw [e0, endRow_eq_runRow e n (by omega) hpos hlt]
  congr 2
  omega

/-- Two runs of a row with a common longitude are the same run. -/
theorem run_unique {a : List ℚ} {s n s' n' : ℕ} (h : IsRun a s n) (h' : IsRun a s' n') (l : ℕ) (hl : l < 360)
    (hc : (l + 360 - s) % 360 < n) (hc' : (l + 360 - s') % 360 < n') : s = s' ∧ n = n' := by
  have hs := h.start
  have hs' := h'.start
  set k := (l + 360 - s) % 360 with hk
  set k' := (l + 360 - s') % 360 with hk'
  have cong : ∀ w : ℤ, BlockedAt a ((s : ℤ) + k + w) ↔ BlockedAt a ((s' : ℤ) + k' + w) := fun w => by
    unfold BlockedAt
    rw [show ((s : ℤ) + k + w) % 360 = ((s' : ℤ) + k' + w) % 360 by omega]
  -- forward
  have hf : ¬ n - k < n' - k' := fun hlt => by
    apply h.after
    have := h'.blocked (k' + (n - k)) (by omega)
    have h2 := (cong ((n - k : ℕ) : ℤ)).mpr (by rw [show (s' : ℤ) + k' + ((n - k : ℕ) : ℤ) = s' + ((k' + (n - k) : ℕ) : ℤ) by push_cast; ring]; exact this)
    rw [show (s : ℤ) + k + ((n - k : ℕ) : ℤ) = s + n by omega] at h2
    exact h2
  have hf' : ¬ n' - k' < n - k := fun hlt => by
    apply h'.after
    have := h.blocked (k + (n' - k')) (by omega)
    have h2 := (cong ((n' - k' : ℕ) : ℤ)).mp (by rw [show (s : ℤ) + k + ((n' - k' : ℕ) : ℤ) = s + ((k + (n' - k') : ℕ) : ℤ) by push_cast; ring]; exact this)
    rw [show (s' : ℤ) + k' + ((n' - k' : ℕ) : ℤ) = s' + n' by omega] at h2
    exact h2
  have hb : ¬ k < k' := fun hlt => by
    apply h.before
    have := h'.blocked (k' - k - 1) (by omega)
    have h2 := (cong (-(k : ℤ) - 1)).mpr (by rw [show (s' : ℤ) + k' + (-(k : ℤ) - 1) = s' + ((k' - k - 1 : ℕ) : ℤ) by omega]; exact this)
    rw [show (s : ℤ) + k + (-(k : ℤ) - 1) = s - 1 by ring] at h2
    exact h2
  have hb' : ¬ k' < k := fun hlt => by
    apply h'.before
    have := h.blocked (k - k' - 1) (by omega)
    have h2 := (cong (-(k' : ℤ) - 1)).mp (by rw [show (s : ℤ) + k + (-(k' : ℤ) - 1) = s + ((k - k' - 1 : ℕ) : ℤ) by omega]; exact this)
    rw [show (s' : ℤ) + k' + (-(k' : ℤ) - 1) = s' - 1 by ring] at h2
    exact h2
  constructor <;> omega

theorem runRow_getD (s n l : ℕ) (hl : l < 360) : (runRow s n).getD l 0 = if (l + 360 - s) % 360 < n then 1 else 0 := by
  unfold runRow
  rw [List.getD_eq_getElem?_getD, List.getElem?_map, List.getElem?_range hl]
  rfl

theorem runRow_length (s n : ℕ) : (runRow s n).length = 360 := by
  unfold runRow; rw [List.length_map, List.length_range]

/-- The groups, day by day, are pairwise different. -/
theorem groups_nodup {crit : ℕ} (g : List (List (List ℚ))) (hg : ∀ d ∈ giblDays g, GoodDay crit d.row) :
    ((giblDays g).flatMap dayGroups).Nodup := by
  show List.Pairwise _ _
  rw [List.pairwise_flatMap]
  constructor
  · intro d hd
    unfold dayGroups
    rw [List.pairwise_map]
    have hnd : (rowEnds d.row).Nodup := by unfold rowEnds; exact List.nodup_range.filter _
    refine List.Pairwise.imp_of_mem ?_ hnd
    intro e e' he he' hne heq
    apply hne
    obtain ⟨h1, h2, h3⟩ := (rowEnds_mem d.row e).mp he
    obtain ⟨h1', h2', h3'⟩ := (rowEnds_mem d.row e').mp he'
    have H := counts_circ d.row (hg d hd).length (hg d hd).free
    have hr := run_of_end d.row (hg d hd).length (hg d hd).free e h2 h3
    have hr' := run_of_end d.row (hg d hd).length (hg d hd).free e' h2' h3'
    have hlt := H.lt e
    have hlt' := H.lt e'
    rw [around360_nat _ h1] at hr hlt
    rw [around360_nat _ h1'] at hr' hlt'
    have hp := hr.pos
    have hp' := hr'.pos
    have hrow : endRow e ((runCounts d.row).getD e 0) = endRow e' ((runCounts d.row).getD e' 0) := congrArg GiblDay.row heq
    rw [endRow_eq_runRow e _ h1 hp hlt, endRow_eq_runRow e' _ h1' hp' hlt'] at hrow
    have hv := congrArg (fun r => r.getD e 0) hrow
    rw [runRow_getD _ _ _ h1, runRow_getD _ _ _ h1, if_pos (by omega)] at hv
    have hin : (e + 360 - ((((e' : ℤ) - ((runCounts d.row).getD e' 0 : ℕ) + 1) % 360).toNat)) % 360 < (runCounts d.row).getD e' 0 := by
      by_contra hc
      rw [if_neg hc] at hv
      norm_num at hv
    obtain ⟨u1, u2⟩ := run_unique hr hr' e h1 (by omega) hin
    rw [u2] at u1
    omega
  · refine List.Pairwise.imp_of_mem ?_ (giblDays_increasing g)
    intro d d' hd hd' hlt x hx x' hx' heq
    obtain ⟨a1, a2, _⟩ := dayGroups_mem (hg d hd) hx
    obtain ⟨b1, b2, _⟩ := dayGroups_mem (hg d' hd') hx'
    rw [heq] at a1 a2
    unfold DayLt at hlt
    omega

/-- C176: splitting the array gives every run of every day exactly once and nothing else. -/
theorem C176_groups (crit : ℕ) (hc : 2 ≤ crit) (g : List (List (List ℚ)))
    (hg : ∀ y d a, DayAt g y d a → GoodDay crit a) :
    ∃ ev, splitGroups crit degrees g = .ok ev ∧ ev.Nodup ∧ ∀ x : GiblDay, x ∈ ev ↔
      ∃ a s n, DayAt g x.year x.day a ∧ IsRun a s n ∧ x.row = runRow s n := by
  have hg' : ∀ d ∈ giblDays g, GoodDay crit d.row := fun d hd => hg _ _ _ ((giblDays_mem g d).mp hd)
  refine ⟨_, splitGroups_eq crit hc g hg', groups_nodup g hg', fun x => ?_⟩
  rw [List.mem_flatMap]
  constructor
  · rintro ⟨d, hd, hx⟩
    obtain ⟨h1, h2, s, n, h3, _, h4⟩ := dayGroups_mem (hg' d hd) hx
    have := (giblDays_mem g d).mp hd
    rw [← h1, ← h2] at this
    exact ⟨d.row, s, n, this, h3, h4⟩
  · rintro ⟨a, s, n, h1, h2, h3⟩
    refine ⟨⟨x.year, x.day, a⟩, (giblDays_mem g _).mpr h1, ?_⟩
    have := dayGroups_of_run (d := ⟨x.year, x.day, a⟩) (hg _ _ _ h1) h2
    have ex : x = { (⟨x.year, x.day, a⟩ : GiblDay) with row := runRow s n } := by rw [← h3]
    rw [ex]
    exact this

/-! ### Overlap and centre of rows -/

theorem overlap_runs (G H : RunGroup) :
    overlapCount (runRow G.start G.len) (runRow H.start H.len) = commonLons G H := by
  unfold overlapCount commonLons runRow
  rw [List.zipWith_map, List.zipWith_self, List.filter_map, List.length_map]
  congr 1
  apply List.filter_congr
  intro l _
  unfold RunGroup.covers
  simp only [Function.comp]
  rw [decide_eq_decide]
  by_cases h1 : (l + 360 - G.start) % 360 < G.len <;> by_cases h2 : (l + 360 - H.start) % 360 < H.len <;>
    simp only [h1, h2, if_true, if_false] <;> norm_num

theorem onesOf_runRow (s n : ℕ) (h : s + n ≤ 360) : onesOf (runRow s n) = List.range' s n := by
  apply List.Perm.eq_of_pairwise (le := (· < ·))
  · intro a b _ _ h1 h2; omega
  · exact onesOf_sorted _
  · exact List.pairwise_lt_range'
  · rw [List.perm_ext_iff_of_nodup ((onesOf_sorted _).imp (fun h => by omega)) List.nodup_range']
    intro l
    unfold onesOf
    rw [List.mem_filter, List.mem_range, decide_eq_true_eq, runRow_length, List.mem_range'_1]
    constructor
    · rintro ⟨h1, h2⟩
      rw [runRow_getD _ _ _ h1] at h2
      have : (l + 360 - s) % 360 < n := by
        by_contra hc; rw [if_neg hc] at h2; norm_num at h2
      omega
    · rintro ⟨h1, h2⟩
      have h1 : l < 360 := by omega
      refine ⟨h1, ?_⟩
      rw [runRow_getD _ _ _ h1, if_pos (by omega)]

theorem centre_run (s n : ℕ) (hn : 1 ≤ n) (h : s + n ≤ 360) : groupCentre (runRow s n) = s + (n - 1) / 2 := by
  unfold groupCentre
  simp only
  rw [onesOf_runRow s n h, List.length_range']
  by_cases he : n % 2 = 0
  · rw [if_pos he]
    have hs : (List.range' s n ++ [0]).insertionSort (· ≤ ·) = 0 :: List.range' s n := by
      apply List.Perm.eq_of_pairwise (le := (· ≤ ·))
      · intro a b _ _ h1 h2; omega
      · exact List.pairwise_insertionSort _ _
      · rw [List.pairwise_cons]
        exact ⟨fun _ _ => Nat.zero_le _, List.pairwise_le_range'⟩
      · exact (List.perm_insertionSort _ _).trans (List.perm_append_singleton _ _)
    rw [hs, List.length_append, List.length_range', List.length_singleton]
    obtain ⟨k, hk⟩ : ∃ k, (n + 1) / 2 = k + 1 := ⟨(n + 1) / 2 - 1, by omega⟩
    rw [hk, List.getD_cons_succ, List.getD_eq_getElem?_getD, List.getElem?_range' (by omega)]
    simp only [Option.getD_some]
    omega
  · rw [if_neg he]
    have hs : (List.range' s n).insertionSort (· ≤ ·) = List.range' s n :=
      List.Pairwise.insertionSort_eq List.pairwise_le_range'
    rw [hs, List.length_range', List.getD_eq_getElem?_getD, List.getElem?_range' (by omega)]
    simp only [Option.getD_some]
    omega

/-! ### Blocks -/

/-- The group of runs that a stored row stands for. -/
def RunOf (g : List (List (List ℚ))) (x : GiblDay) (G : RunGroup) : Prop :=
  G.year = x.year ∧ G.day = x.day ∧ x.row = runRow G.start G.len ∧ G.In g

theorem isChain_map_of {α β : Type} (R : α → α → Prop) (Q : β → β → Prop) (f : α → β) (l : List α)
    (hi : ∀ a ∈ l, ∀ b ∈ l, R a b → Q (f a) (f b)) (h : l.IsChain R) : (l.map f).IsChain Q := by
  rw [List.isChain_map]
  exact h.imp_of_mem_imp (fun a b ha hb hr => hi a ha b hb hr)

/-- C176: whatever the function returns is made of blocks: sequences of at least five groups of blocked longitudes, each group a
whole run of its day, all in the same year, one or two days apart, each with more than GIBL_OVERLAP longitudes in common with
the next; groups that do not go over longitude 0 have middle longitudes within BLOCK_TRAVEL of that of the first one; no group
is in two blocks; and the value at a longitude is the number of groups of that day in blocks that contain it. -/
theorem C176_blocks (crit : ℕ) (hc : 2 ≤ crit) (overlap btime travel : ℤ) (ho : 0 ≤ overlap) (ht : 0 ≤ travel) (Y D : ℕ)
    (g : List (List (List ℚ))) (hg : ∀ y d a, DayAt g y d a → GoodDay crit a) (f : List (List (List ℚ)))
    (h : calcBlocks crit overlap btime travel Y D g degrees = .ok f) :
    Rows360 Y D f ∧ ∃ Bs : List (List RunGroup), (∀ B ∈ Bs, IsBlock g overlap travel B) ∧ Bs.flatten.Nodup ∧
      ∀ y d l, y < Y → d < D → l < 360 → entry3 f y d l =
        ((Bs.flatten.filter fun G => decide (G.year = y ∧ G.day = d ∧ G.covers l)).length : ℚ) := by
  obtain ⟨ev0, hs, hnd0, hev0⟩ := C176_groups crit hc g hg
  unfold calcBlocks at h
  rw [hs] at h
  simp only [bind, Except.bind] at h
  cases hcl : closeGroups ev0 with
  | error e => rw [hcl] at h; cases h
  | ok ev =>
    rw [hcl] at h
    simp only at h
    obtain ⟨hsub, _⟩ := closeGroups_sublist hcl
    cases htr : trackAll overlap btime ev g.length with
    | error e => rw [htr] at h; cases h
    | ok blocks =>
      rw [htr] at h
      simp only at h
      obtain ⟨hnd, hgood⟩ := trackAll_spec ev overlap btime ho _ blocks htr
      have hndev : ev.Nodup := hnd0.sublist hsub
      have hrun : ∀ x ∈ ev, ∃ G, RunOf g x G := fun x hx => by
        obtain ⟨a, s, n, h1, h2, h3⟩ := (hev0 x).mp (hsub.subset hx)
        exact ⟨⟨x.year, x.day, s, n⟩, rfl, rfl, h3, a, h1, h2⟩
      classical
      let toG : ℕ → RunGroup := fun p => if hp : ∃ G, RunOf g (groupAt ev p) G then hp.choose else ⟨0, 0, 0, 0⟩
      have hat : ∀ p, p < ev.length → groupAt ev p ∈ ev := fun p hp => by
        unfold groupAt; rw [List.getD_eq_getElem?_getD, List.getElem?_eq_getElem hp]; exact List.getElem_mem hp
      have htoG : ∀ p, p < ev.length → RunOf g (groupAt ev p) (toG p) := fun p hp => by
        have hex := hrun _ (hat p hp)
        simp only [toG, dif_pos hex]
        exact hex.choose_spec
      have hinj : ∀ p q, p < ev.length → q < ev.length → toG p = toG q → p = q := fun p q hp hq heq => by
        obtain ⟨a1, a2, a3, _⟩ := htoG p hp
        obtain ⟨b1, b2, b3, _⟩ := htoG q hq
        have e : groupAt ev p = groupAt ev q := by
          have e1 : (groupAt ev p).year = (groupAt ev q).year := by rw [← a1, ← b1, heq]
          have e2 : (groupAt ev p).day = (groupAt ev q).day := by rw [← a2, ← b2, heq]
          have e3 : (groupAt ev p).row = (groupAt ev q).row := by rw [a3, b3, heq]
          cases hx : groupAt ev p; cases hy : groupAt ev q
          rw [hx, hy] at e1 e2 e3
          simp only at e1 e2 e3
          rw [e1, e2, e3]
        unfold groupAt at e
        rw [List.getD_eq_getElem?_getD, List.getD_eq_getElem?_getD, List.getElem?_eq_getElem hp, List.getElem?_eq_getElem hq] at e
        simp only [Option.getD_some] at e
        exact (List.Nodup.getElem_inj_iff hndev).mp e
      set kept := blocks.filterMap (cutBlock travel ev) with hkept
      have hkspec : ∀ bb' ∈ kept, ∃ bb ∈ blocks, bb' <+: bb ∧ 4 < bb'.length ∧ ∀ p ∈ bb',
          |(groupCentre (groupAt ev (bb'.headD 0)).row : ℤ) - groupCentre (groupAt ev p).row| ≤ travel := by
        intro bb' hbb'
        rw [hkept, List.mem_filterMap] at hbb'
        obtain ⟨bb, hbb, he⟩ := hbb'
        exact ⟨bb, hbb, cutBlock_spec travel ht ev bb bb' he (hgood bb hbb).long⟩
      have hknd : kept.flatten.Nodup :=
        hnd.sublist (filterMap_flatten_sublist _ (fun b b' hb => cutBlock_prefix travel ev b b' hb) blocks)
      have hklt : ∀ p ∈ kept.flatten, p < ev.length := fun p hp => by
        obtain ⟨bb', hbb', hp⟩ := List.mem_flatten.mp hp
        obtain ⟨bb, hbb, hpre, _⟩ := hkspec bb' hbb'
        obtain ⟨y, hy⟩ := (hgood bb hbb).year
        exact (hy p (hpre.subset hp)).1
      obtain ⟨f1, f2, f3⟩ := addGroups_spec Y D _ _ f (zeros_rows360 Y D) h
      refine ⟨f1, kept.map (List.map toG), ?_, ?_, ?_⟩
      · intro B hB
        obtain ⟨bb', hbb', rfl⟩ := List.mem_map.mp hB
        obtain ⟨bb, hbb, hpre, hlen, htrav⟩ := hkspec bb' hbb'
        obtain ⟨y, hy⟩ := (hgood bb hbb).year
        have hlt : ∀ p ∈ bb', p < ev.length := fun p hp => (hy p (hpre.subset hp)).1
        refine ⟨by rw [List.length_map]; omega, fun G hG => ?_, ?_, ?_⟩
        · obtain ⟨p, hp, rfl⟩ := List.mem_map.mp hG
          exact (htoG p (hlt p hp)).2.2.2
        · refine isChain_map_of (Link ev overlap) _ toG bb' ?_ ((hgood bb hbb).chain.prefix hpre)
          intro p hp q hq hl
          obtain ⟨l1, l2, l3⟩ := hl
          obtain ⟨a1, a2, a3, _⟩ := htoG p (hlt p hp)
          obtain ⟨b1, b2, b3, _⟩ := htoG q (hlt q hq)
          have y1 := (hy p (hpre.subset hp)).2
          have y2 := (hy q (hpre.subset hq)).2
          refine ⟨by rw [a1, b1, y1, y2], by omega, by omega, ?_⟩
          rw [a3, b3, overlap_runs] at l3
          exact l3
        · intro F G hF hG hFi hGi
          cases bb' with
          | nil => simp at hlen
          | cons p0 ps =>
            simp only [List.map_cons, List.head?_cons, Option.some.injEq] at hF
            subst hF
            obtain ⟨q, hq, rfl⟩ := List.mem_map.mp hG
            have := htrav q hq
            simp only [List.headD_cons] at this
            obtain ⟨_, _, a3, aa, _, ar⟩ := htoG p0 (hlt p0 (by simp))
            obtain ⟨_, _, b3, ba, _, br⟩ := htoG q (hlt q hq)
            rw [a3, b3, centre_run _ _ ar.pos hFi, centre_run _ _ br.pos hGi] at this
            unfold RunGroup.middle
            push_cast at this ⊢
            exact this
      · have e : (kept.map (List.map toG)).flatten = kept.flatten.map toG := by rw [List.map_flatten]
        rw [e]
        rw [List.Nodup, List.pairwise_map]
        refine List.Pairwise.imp_of_mem ?_ hknd
        intro p q hp hq hne heq
        exact hne (hinj p q (hklt p hp) (hklt q hq) heq)
      · intro y d l hy hd hl
        have e : (kept.map (List.map toG)).flatten = kept.flatten.map toG := by rw [List.map_flatten]
        rw [f3 y d l hy hd hl, zeros_entry3 Y D y d l hy hd hl, zero_add, e]
        clear f3 h e
        revert hklt
        generalize kept.flatten = ps
        intro hklt
        induction ps with
        | nil => simp
        | cons p ps ih =>
          have ih' := ih (fun q hq => hklt q (List.mem_cons_of_mem _ hq))
          obtain ⟨a1, a2, a3, _⟩ := htoG p (hklt p (by simp))
          simp only [List.map_cons]
          by_cases hm : (groupAt ev p).year = y ∧ (groupAt ev p).day = d
          · rw [List.filter_cons_of_pos (by simpa using hm)]
            simp only [List.map_cons, List.sum_cons]
            rw [ih', a3, runRow_getD _ _ _ hl]
            by_cases hcov : (toG p).covers l
            · rw [if_pos (show (l + 360 - (toG p).start) % 360 < (toG p).len from hcov), List.filter_cons_of_pos (by simp only [decide_eq_true_eq]; rw [a1, a2]; exact ⟨hm.1, hm.2, hcov⟩)]
              rw [List.length_cons]; push_cast; ring
            · rw [if_neg (show ¬ (l + 360 - (toG p).start) % 360 < (toG p).len from hcov), List.filter_cons_of_neg (by simp only [decide_eq_true_eq]; tauto)]
              ring
          · rw [List.filter_cons_of_neg (by simpa using hm), ih',
              List.filter_cons_of_neg (by simp only [decide_eq_true_eq]; rw [a1, a2]; tauto)]

/-- C177: every value is 0 or 1, and 1 only where the grouped blocking of that day is 1. -/
theorem C177_values (crit : ℕ) (hc : 2 ≤ crit) (overlap btime travel : ℤ) (ho : 0 ≤ overlap) (ht : 0 ≤ travel) (Y D : ℕ)
    (g : List (List (List ℚ))) (hg : ∀ y d a, DayAt g y d a → GoodDay crit a) (f : List (List (List ℚ)))
    (h : calcBlocks crit overlap btime travel Y D g degrees = .ok f) (y d l : ℕ) (hy : y < Y) (hd : d < D) (hl : l < 360) :
    (entry3 f y d l = 0 ∨ entry3 f y d l = 1) ∧ (entry3 f y d l ≠ 0 → entry3 g y d l = 1) := by
  obtain ⟨_, Bs, hB, hnd, hv⟩ := C176_blocks crit hc overlap btime travel ho ht Y D g hg f h
  rw [hv y d l hy hd hl]
  set L := Bs.flatten.filter fun G => decide (G.year = y ∧ G.day = d ∧ G.covers l) with hL
  have hLmem : ∀ G ∈ L, G.year = y ∧ G.day = d ∧ G.covers l ∧ G.In g := fun G hG => by
    rw [hL, List.mem_filter, decide_eq_true_eq] at hG
    obtain ⟨h1, h2⟩ := hG
    obtain ⟨B, hBm, hGB⟩ := List.mem_flatten.mp h1
    exact ⟨h2.1, h2.2.1, h2.2.2, (hB B hBm).groups G hGB⟩
  have hLnd : L.Nodup := hnd.filter _
  constructor
  · clear_value L
    match L with
    | [] => left; simp
    | [G] => right; simp
    | G :: H :: rest =>
      exfalso
      have hG := hLmem G (by simp)
      have hH := hLmem H (by simp)
      obtain ⟨g1, g2, g3, a, g4, g5⟩ := hG
      obtain ⟨k1, k2, k3, b, k4, k5⟩ := hH
      have hab : a = b := by
        rw [g1, g2] at g4; rw [k1, k2] at k4
        obtain ⟨yr, e1, e2⟩ := g4
        obtain ⟨yr', e3, e4⟩ := k4
        rw [e1] at e3
        cases e3
        rw [e2] at e4
        exact Option.some.inj e4
      subst hab
      obtain ⟨u1, u2⟩ := run_unique g5 k5 l hl g3 k3
      have : G = H := by
        cases G; cases H
        simp only at g1 g2 k1 k2 u1 u2
        rw [g1, g2, k1, k2, u1, u2]
      simp [this] at hLnd
  · intro hne
    have : L ≠ [] := fun h0 => hne (by rw [h0]; simp)
    obtain ⟨G, rest, hGr⟩ := List.exists_cons_of_ne_nil this
    obtain ⟨g1, g2, g3, a, ⟨yr, e1, e2⟩, g5⟩ := hLmem G (by rw [hGr]; simp)
    have hb := g5.blocked _ g3
    have hs := g5.start
    have : BlockedAt a (l : ℤ) := by
      unfold BlockedAt at hb ⊢
      rw [show ((G.start : ℤ) + (((l + 360 - G.start) % 360 : ℕ) : ℤ)) % 360 = (l : ℤ) % 360 by omega] at hb
      exact hb
    rw [blockedAt_nat a hl] at this
    unfold entry3
    rw [g1] at e1; rw [g2] at e2
    rw [List.getD_eq_getElem?_getD, List.getD_eq_getElem?_getD, List.getD_eq_getElem?_getD, e1]
    simp only [Option.getD_some]
    rw [e2]
    simp only [Option.getD_some]
    rw [this]
    rfl

end Metcalcpy.Props
