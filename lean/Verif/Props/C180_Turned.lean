/-
C180  Turning the latitude circle turns the blocks when no group goes over longitude 0 before or after.
-/
import Verif.Props.C178_Persistent

namespace Metcalcpy.Props
open Metcalcpy Spec

/-- The day turned by `k` longitudes: what was at longitude `l` is now at `l + k`, read around the circle. -/
def turnDay (k : ℕ) (a : List ℚ) : List ℚ := (List.range 360).map fun j => a.getD ((j + 360 - k) % 360) 0

/-- All days turned. -/
def turnDays (k : ℕ) (g : List (List (List ℚ))) : List (List (List ℚ)) := g.map fun yr => yr.map (turnDay k)

/-- The group turned. -/
def turnGroup (k : ℕ) (G : RunGroup) : RunGroup := { G with start := (G.start + k) % 360 }

theorem blockedAt_turn (k : ℕ) (hk : k < 360) (a : List ℚ) (z : ℤ) : BlockedAt (turnDay k a) z ↔ BlockedAt a (z - k) := by
  unfold BlockedAt turnDay
  have hj : (z % 360).toNat < 360 := by omega
  rw [List.getElem?_map, List.getElem?_range hj, Option.map_some,
    show (((z % 360).toNat + 360 - k) % 360) = ((z - k) % 360).toNat by omega, List.getD_eq_getElem?_getD]
  cases a[((z - k) % 360).toNat]? with
  | none => simp
  | some v => simp

theorem blockedAt_congr (a : List ℚ) {z w : ℤ} (h : z % 360 = w % 360) : BlockedAt a z ↔ BlockedAt a w := by
  unfold BlockedAt
  rw [h]

theorem isRun_turn (k : ℕ) (hk : k < 360) (a : List ℚ) (s n : ℕ) (hs : s < 360) :
    IsRun (turnDay k a) ((s + k) % 360) n ↔ IsRun a s n := by
  have e : ∀ i : ℤ, BlockedAt (turnDay k a) (((s + k) % 360 : ℕ) + i) ↔ BlockedAt a ((s : ℤ) + i) := by
    intro i
    rw [blockedAt_turn k hk]
    apply blockedAt_congr
    push_cast
    omega
  constructor
  · rintro ⟨h1, h2, h3, h4, h5⟩
    refine ⟨h1, hs, fun i hi => (e i).mp (h3 i hi), fun h => h4 ?_, fun h => h5 ((e n).mpr h)⟩
    have := (e (-1)).mpr (by simpa [sub_eq_add_neg] using h)
    simpa [sub_eq_add_neg] using this
  · rintro ⟨h1, h2, h3, h4, h5⟩
    refine ⟨h1, Nat.mod_lt _ (by norm_num), fun i hi => (e i).mpr (h3 i hi), fun h => h4 ?_, fun h => h5 ((e n).mp h)⟩
    have := (e (-1)).mp (by simpa [sub_eq_add_neg] using h)
    simpa [sub_eq_add_neg] using this

theorem dayAt_turn (k : ℕ) (g : List (List (List ℚ))) (y d : ℕ) (b : List ℚ) :
    DayAt (turnDays k g) y d b ↔ ∃ a, DayAt g y d a ∧ b = turnDay k a := by
  unfold DayAt turnDays
  simp only [List.getElem?_map, Option.map_eq_some_iff]
  constructor
  · rintro ⟨yr', ⟨yr, h1, rfl⟩, h2⟩
    rw [List.getElem?_map, Option.map_eq_some_iff] at h2
    obtain ⟨a, h3, rfl⟩ := h2
    exact ⟨a, ⟨yr, h1, h3⟩, rfl⟩
  · rintro ⟨a, ⟨yr, h1, h2⟩, rfl⟩
    exact ⟨_, ⟨yr, h1, rfl⟩, by rw [List.getElem?_map, h2]; rfl⟩

theorem goodDay_turn (k : ℕ) (hk : k < 360) (crit : ℕ) (a : List ℚ) (h : GoodDay crit a) : GoodDay crit (turnDay k a) := by
  obtain ⟨z, hz⟩ := h.free
  refine ⟨by simp [turnDay], ⟨z + k, ?_⟩, fun s n hr => ?_⟩
  · rw [blockedAt_turn k hk, add_sub_cancel_right]
    exact hz
  · have hs := hr.start
    have e : ((s + 360 - k) % 360 + k) % 360 = s := by omega
    rw [← e, isRun_turn k hk a _ n (Nat.mod_lt _ (by norm_num))] at hr
    exact h.long _ _ hr

/-- The groups of the turned days are the turned groups. -/
theorem in_turn (k : ℕ) (hk : k < 360) (g : List (List (List ℚ))) (H : RunGroup) :
    H.In (turnDays k g) ↔ ∃ G : RunGroup, G.In g ∧ H = turnGroup k G := by
  constructor
  · rintro ⟨b, hb, hr⟩
    obtain ⟨a, ha, rfl⟩ := (dayAt_turn k g _ _ b).mp hb
    have hs := hr.start
    have e : ((H.start + 360 - k) % 360 + k) % 360 = H.start := by omega
    refine ⟨{ H with start := (H.start + 360 - k) % 360 }, ⟨a, ha, ?_⟩, ?_⟩
    · rw [← e, isRun_turn k hk a _ _ (Nat.mod_lt _ (by norm_num))] at hr
      exact hr
    · unfold turnGroup
      simp only [e]
  · rintro ⟨G, ⟨a, ha, hr⟩, rfl⟩
    exact ⟨_, (dayAt_turn k g _ _ _).mpr ⟨a, ha, rfl⟩, (isRun_turn k hk a _ _ hr.start).mpr hr⟩

theorem covers_turn (k : ℕ) (G : RunGroup) (hs : G.start < 360) (l : ℕ) (hl : l < 360) :
    (turnGroup k G).covers ((l + k) % 360) ↔ G.covers l := by
  unfold RunGroup.covers turnGroup
  rw [show ((l + k) % 360 + 360 - (G.start + k) % 360) % 360 = (l + 360 - G.start) % 360 by omega]

theorem turn_perm (k : ℕ) : ((List.range 360).map fun l => (l + k) % 360).Perm (List.range 360) := by
  apply List.Subperm.perm_of_length_le
  · apply List.Nodup.subperm
    · rw [List.nodup_map_iff_inj_on List.nodup_range]
      intro a ha b hb h
      rw [List.mem_range] at ha hb
      omega
    · intro x hx
      obtain ⟨l, -, rfl⟩ := List.mem_map.mp hx
      exact List.mem_range.mpr (Nat.mod_lt _ (by norm_num))
  · simp

theorem commonLons_turn (k : ℕ) (G H : RunGroup) (hG : G.start < 360) (hH : H.start < 360) :
    commonLons (turnGroup k G) (turnGroup k H) = commonLons G H := by
  unfold commonLons
  rw [← ((turn_perm k).filter _).length_eq, List.filter_map, List.length_map]
  congr 1
  apply List.filter_congr
  intro l hl
  rw [List.mem_range] at hl
  simp only [Function.comp]
  apply decide_eq_decide.mpr
  rw [covers_turn k G hG l hl, covers_turn k H hH l hl]

theorem chain_same {α : Type} (R : α → α → Prop) (P : α → Prop) (B : List α) (h : B.IsChain R)
    (hR : ∀ G ∈ B, ∀ H ∈ B, R G H → (P G ↔ P H)) (F : α) (hF : B.head? = some F) : ∀ G ∈ B, (P F ↔ P G) := by
  induction B generalizing F with
  | nil => simp at hF
  | cons b B ih =>
    simp only [List.head?_cons, Option.some.injEq] at hF
    subst hF
    intro G hG
    rcases List.mem_cons.mp hG with rfl | hG
    · rfl
    cases B with
    | nil => simp at hG
    | cons c B =>
      rw [List.isChain_cons_cons] at h
      rw [hR b (by simp) c (by simp) h.1]
      exact ih h.2 (fun G hG H hH => hR G (by simp [hG]) H (by simp [hH])) c rfl G hG

/-- Two groups that stay off longitude 0 before and after and share a longitude are moved by the same amount. -/
theorem same_lift (k : ℕ) (G H : RunGroup) (hG : G.start < 360) (hH : H.start < 360) (iG : G.inside) (iH : H.inside)
    (tG : (turnGroup k G).inside) (tH : (turnGroup k H).inside) (hk : k < 360) (hc : 0 < commonLons G H) :
    360 ≤ G.start + k ↔ 360 ≤ H.start + k := by
  unfold commonLons at hc
  obtain ⟨l, hl⟩ := List.exists_mem_of_length_pos hc
  obtain ⟨hl, h⟩ := List.mem_filter.mp hl
  rw [List.mem_range] at hl
  rw [decide_eq_true_iff] at h
  unfold RunGroup.covers at h
  unfold RunGroup.inside at iG iH
  unfold RunGroup.inside turnGroup at tG tH
  simp only at tG tH
  omega

/-- C180 for a season with one block whose groups stay off longitude 0 before and after turning: the blocks of the turned days are
the turned blocks.  Missing: groups that go over longitude 0 (`C180_turned_counterexample`) and seasons with several blocks. -/
theorem C180_turned_partial (crit : ℕ) (hc : 2 ≤ crit) (overlap btime travel : ℤ) (Y D k : ℕ) (hk : k < 360)
    (g : List (List (List ℚ))) (hg : ∀ y d a, DayAt g y d a → GoodDay crit a) (B : List RunGroup)
    (hB : IsBlock g overlap travel B) (hall : ∀ G : RunGroup, G.In g → G ∈ B) (hin : ∀ G ∈ B, G.inside)
    (hturn : ∀ G ∈ B, (turnGroup k G).inside) (ho : 0 ≤ overlap) (hb1 : 1 ≤ btime) (hb : btime ≤ B.length)
    (hYD : ∀ G ∈ B, G.year < Y ∧ G.day < D) :
    ∃ f f', calcBlocks crit overlap btime travel Y D g degrees = .ok f ∧
      calcBlocks crit overlap btime travel Y D (turnDays k g) degrees = .ok f' ∧ Rows360 Y D f' ∧
      ∀ y d l, y < Y → d < D → l < 360 → entry3 f' y d ((l + k) % 360) = entry3 f y d l := by
  have hst : ∀ G ∈ B, G.start < 360 := fun G hG => by
    obtain ⟨a, -, hr⟩ := hB.groups G hG
    exact hr.start
  have hB' : IsBlock (turnDays k g) overlap travel (B.map (turnGroup k)) := by
    refine ⟨by rw [List.length_map]; exact hB.five, ?_, ?_, ?_⟩
    · intro H hH
      obtain ⟨G, hG, rfl⟩ := List.mem_map.mp hH
      exact (in_turn k hk g _).mpr ⟨G, hB.groups G hG, rfl⟩
    · rw [List.isChain_map]
      have := hB.steps
      rw [List.isChain_iff_getElem] at this ⊢
      intro i hi
      obtain ⟨h1, h2, h3, h4⟩ := this i hi
      refine ⟨h1, h2, h3, ?_⟩
      rw [commonLons_turn k _ _ (hst _ (List.getElem_mem _)) (hst _ (List.getElem_mem _))]
      exact h4
    · intro F' G' hF' hG' _ _
      rw [List.head?_map, Option.map_eq_some_iff] at hF'
      obtain ⟨F, hF, rfl⟩ := hF'
      obtain ⟨G, hG, rfl⟩ := List.mem_map.mp hG'
      have hFB : F ∈ B := List.mem_of_mem_head? hF
      have hs := chain_same _ (fun G : RunGroup => 360 ≤ G.start + k) B hB.steps (fun G hG H hH hR =>
        same_lift k G H (hst G hG) (hst H hH) (hin G hG) (hin H hH) (hturn G hG) (hturn H hH) hk (by omega)) F hF G hG
      have ht := hB.travel F G hF hG (hin F hFB) (hin G hG)
      have e : (turnGroup k F).middle - (turnGroup k G).middle = F.middle - G.middle := by
        unfold RunGroup.middle turnGroup
        have a := hst F hFB
        have b := hst G hG
        simp only
        omega
      rw [e]
      exact ht
  obtain ⟨f, hf, -, hv⟩ := C178_found crit hc overlap btime travel Y D g hg B hB hall hin hb1 hb hYD
  obtain ⟨f', hf', hr', hv'⟩ := C178_found crit hc overlap btime travel Y D (turnDays k g) (fun y d b hd => by
      obtain ⟨a, ha, rfl⟩ := (dayAt_turn k g y d b).mp hd
      exact goodDay_turn k hk crit a (hg y d a ha)) (B.map (turnGroup k)) hB' (fun H hH => by
      obtain ⟨G, hG, rfl⟩ := (in_turn k hk g H).mp hH
      exact List.mem_map_of_mem (hall G hG)) (fun H hH => by
      obtain ⟨G, hG, rfl⟩ := List.mem_map.mp hH
      exact hturn G hG) hb1 (by rw [List.length_map]; exact hb) (fun H hH => by
      obtain ⟨G, hG, rfl⟩ := List.mem_map.mp hH
      exact hYD G hG)
  refine ⟨f, f', hf, hf', hr', fun y d l hy hd hl => ?_⟩
  rw [hv y d l hy hd hl, hv' y d _ hy hd (Nat.mod_lt _ (by norm_num))]
  refine if_congr ?_ rfl rfl
  constructor
  · rintro ⟨H, hH, h1, h2, h3⟩
    obtain ⟨G, hG, rfl⟩ := List.mem_map.mp hH
    exact ⟨G, hG, h1, h2, (covers_turn k G (hst G hG) l hl).mp h3⟩
  · rintro ⟨G, hG, h1, h2, h3⟩
    exact ⟨_, List.mem_map_of_mem hG, h1, h2, (covers_turn k G (hst G hG) l hl).mpr h3⟩

/-- The moving sequence at 100 turned by 50: the hypotheses hold. -/
example : ∀ G ∈ seasonGroups (exMoving 100), G.inside ∧ (turnGroup 50 G).inside := by
  unfold RunGroup.inside turnGroup
  decide

example : ∃ f f', calcBlocks (15 : ℕ) 10 5 45 1 5 (exSeason (exMoving 100)) degrees = .ok f ∧
    calcBlocks (15 : ℕ) 10 5 45 1 5 (turnDays 50 (exSeason (exMoving 100))) degrees = .ok f' ∧
    entry3 f 0 0 100 = 1 ∧ entry3 f' 0 0 150 = 1 ∧ entry3 f' 0 0 100 = 0 := by
  obtain ⟨h1, h2, h3, h4, h5⟩ := exMoving_block
  obtain ⟨f, f', e1, e2, -, e3⟩ := C180_turned_partial 15 (by norm_num) 10 5 45 1 5 50 (by norm_num) _ h1 _ h2 h3
    (fun G hG => (h4 G hG).1) (by unfold RunGroup.inside turnGroup; decide) (by norm_num) (by norm_num) h5
    (fun G hG => (h4 G hG).2)
  obtain ⟨⟨f0, k1, k2⟩, -⟩ := C180_turned_counterexample
  rw [e1] at k1
  cases k1
  refine ⟨f, f', e1, e2, ?_, ?_, ?_⟩
  · rw [k2 0 100 (by norm_num) (by norm_num)]; norm_num
  · rw [e3 0 0 100 (by norm_num) (by norm_num) (by norm_num), k2 0 100 (by norm_num) (by norm_num)]; norm_num
  · have := e3 0 0 50 (by norm_num) (by norm_num) (by norm_num)
    rw [show (50 + 50) % 360 = 100 by norm_num] at this
    rw [this, k2 0 50 (by norm_num) (by norm_num)]; norm_num

end Metcalcpy.Props
