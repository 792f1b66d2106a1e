/-
C45  The object bootstrap stores each result in its own row (false for several statistics).
C46  Resampled cases count as often as they were drawn (false).
-/
import Verif.Model.ObjectBootstrap
import Mathlib.Data.List.Nodup
import Mathlib.Data.List.Dedup
import Mathlib.Data.List.Perm.Basic
import Mathlib.Data.Rat.Defs

namespace Metcalcpy.Props
open Metcalcpy

/-- A value that is neither a group nor a number. -/
def PlainValue (v : String) : Prop :=
  ':' ∉ v.toList ∧ ';' ∉ v.toList ∧ isStringInteger v = false ∧ isStringStrictlyFloat (some v) = false

theorem matchesOut_plain {v : String} (h : PlainValue v) (c : String) : matchesOut c v = (v == c) := by
  obtain ⟨h1, h2, h3, h4⟩ := h
  unfold matchesOut filterParts
  rw [if_neg (by simpa using h1), if_neg (by simpa using h2)]
  simp [h3, h4]

theorem writeFirst_split {α : Type*} (p : List String → Bool) (x : α) (m : List String → Option α)
    (A B : List (List String)) (k : List String) (hA : ∀ a ∈ A, p a = false) (hk : p k = true)
    (hnd : (A ++ k :: B).Nodup) :
    writeFirst p x ((A ++ k :: B).map (fun q => (q, m q))) =
      .ok ((A ++ k :: B).map (fun q => (q, if q = k then some x else m q))) := by
  induction A with
  | nil =>
    simp only [List.nil_append, List.map_cons, writeFirst, hk, if_true]
    simp only [List.nil_append, List.nodup_cons] at hnd
    congr 2
    apply List.map_congr_left
    intro q hq
    have : q ≠ k := fun e => hnd.1 (e ▸ hq)
    simp [this]
  | cons a A ih =>
    simp only [List.cons_append, List.nodup_cons] at hnd
    have ha : a ≠ k := fun e => hnd.1 (by simp [e])
    simp only [List.cons_append, List.map_cons, writeFirst, hA a (by simp)]
    rw [ih (fun b hb => hA b (by simp [hb])) hnd.2]
    simp [ha]

/-- The rows before the first match of a point. -/
theorem product_split (indys stats : List String) (s₁ : String) (ss : List String) (hs : stats = s₁ :: ss)
    (i : String) (hi : i ∈ indys) :
    ∀ (vals : List (List String)) (pt : List String), (∀ l ∈ vals, ∀ v ∈ l, PlainValue v) → pt ∈ product vals →
    ∃ A B, product (vals ++ [indys, stats]) = A ++ (pt ++ [i, s₁]) :: B ∧
      (∀ a ∈ A, matchPoint pt i a = false) ∧ matchPoint pt i (pt ++ [i, s₁]) = true := by
  intro vals
  induction vals with
  | nil =>
    intro pt _ hpt
    simp only [product, List.mem_singleton] at hpt
    subst hpt
    obtain ⟨l₁, l₂, e, hn⟩ := List.eq_append_cons_of_mem hi
    refine ⟨l₁.flatMap (fun a => stats.map (fun s => [a, s])),
      ss.map (fun s => [i, s]) ++ l₂.flatMap (fun a => stats.map (fun s => [a, s])), ?_, ?_, by simp [matchPoint]⟩
    · have e0 : product ([] ++ [indys, stats]) = indys.flatMap (fun a => stats.map (fun s => [a, s])) := by
        simp only [List.nil_append, product, List.map_flatMap, List.map_cons, List.map_nil]
        congr 1
        funext a
        induction stats with
        | nil => rfl
        | cons x xs ihx => simp [List.flatMap_cons]; clear * -; induction xs with
          | nil => rfl
          | cons y ys ihy => simp [List.flatMap_cons, ihy]
      rw [e0, e, List.flatMap_append, List.flatMap_cons, hs]
      simp
    · intro a ha
      simp only [List.mem_flatMap, List.mem_map] at ha
      obtain ⟨j, hj, s, -, rfl⟩ := ha
      have : j ≠ i := fun e => hn (e ▸ hj)
      simp [matchPoint, this]
  | cons l vals ih =>
    intro pt hp hpt
    simp only [product, List.mem_flatMap, List.mem_map] at hpt
    obtain ⟨v, hv, pt', hpt', rfl⟩ := hpt
    obtain ⟨A, B, e1, e2, e3⟩ := ih pt' (fun l hl => hp l (by simp [hl])) hpt'
    obtain ⟨l₁, l₂, e, hn⟩ := List.eq_append_cons_of_mem hv
    have hvp : PlainValue v := hp l (by simp) v hv
    refine ⟨l₁.flatMap (fun a => (product (vals ++ [indys, stats])).map (fun p => a :: p)) ++ A.map (fun p => v :: p),
      B.map (fun p => v :: p) ++ l₂.flatMap (fun a => (product (vals ++ [indys, stats])).map (fun p => a :: p)),
      ?_, ?_, ?_⟩
    · simp only [List.cons_append, product]
      rw [e, List.flatMap_append, List.flatMap_cons]
      conv_lhs => rw [show (product (vals ++ [indys, stats])).map (fun p => v :: p) =
        A.map (fun p => v :: p) ++ (v :: (pt' ++ [i, s₁])) :: B.map (fun p => v :: p) by rw [e1]; simp]
      simp
    · intro a ha
      simp only [List.mem_append, List.mem_flatMap, List.mem_map] at ha
      rcases ha with ⟨w, hw, p, -, rfl⟩ | ⟨p, hpA, rfl⟩
      · have : v ≠ w := fun e => hn (e ▸ hw)
        simp [matchPoint, matchesOut_plain hvp, this]
      · simp [matchPoint, e2 p hpA]
    · simp [matchPoint, matchesOut_plain hvp, e3]

theorem nodup_product : ∀ (ls : List (List String)), (∀ l ∈ ls, l.Nodup) → (product ls).Nodup
  | [], _ => by simp [product]
  | l :: ls, h => by
    have ih := nodup_product ls (fun l hl => h l (by simp [hl]))
    simp only [product]
    rw [List.nodup_flatMap]
    refine ⟨fun a _ => ih.map (fun x y e => by simpa using e), ?_⟩
    have hl := h l (by simp)
    refine hl.imp ?_
    intro a b hab x hx hy
    simp only [List.mem_map] at hx hy
    obtain ⟨p, -, rfl⟩ := hx
    obtain ⟨q, -, e⟩ := hy
    simp only [List.cons.injEq] at e
    exact hab e.1.symm

/-- The final content of a row: the last write to it. -/
def lastWrite {α : Type*} (s₁ : String) (compute : String → String → List String → α)
    (ws : List (String × String × List String)) (m : List String → Option α) (q : List String) : Option α :=
  ws.foldl (fun r w => if q = w.2.2 ++ [w.1, s₁] then some (compute w.1 w.2.1 w.2.2) else r) (m q)

theorem run_writes {α : Type*} (vals : List (List String)) (indys stats : List String) (s₁ : String)
    (ss : List String) (hs : stats = s₁ :: ss) (hnd : (product (vals ++ [indys, stats])).Nodup)
    (hp : ∀ l ∈ vals, ∀ v ∈ l, PlainValue v) (compute : String → String → List String → α) :
    ∀ (ws : List (String × String × List String)), (∀ w ∈ ws, w.1 ∈ indys ∧ w.2.2 ∈ product vals) →
    ∀ m : List String → Option α,
    ws.foldlM (fun rows w => writeFirst (matchPoint w.2.2 w.1) (compute w.1 w.2.1 w.2.2) rows)
      ((product (vals ++ [indys, stats])).map (fun k => (k, m k))) =
    (.ok ((product (vals ++ [indys, stats])).map (fun k => (k, lastWrite s₁ compute ws m k))) :
      Except PyErr (List (List String × Option α))) := by
  intro ws
  induction ws with
  | nil => intro _ m; simp [lastWrite, pure, Except.pure]
  | cons w ws ih =>
    intro hw m
    obtain ⟨h1, h2⟩ := hw w (by simp)
    obtain ⟨A, B, e1, e2, e3⟩ := product_split indys stats s₁ ss hs w.1 h1 vals w.2.2 hp h2
    rw [List.foldlM_cons]
    have : writeFirst (matchPoint w.2.2 w.1) (compute w.1 w.2.1 w.2.2)
        ((product (vals ++ [indys, stats])).map (fun k => (k, m k))) =
        .ok ((product (vals ++ [indys, stats])).map
          (fun q => (q, if q = w.2.2 ++ [w.1, s₁] then some (compute w.1 w.2.1 w.2.2) else m q))) := by
      rw [e1] at hnd ⊢
      exact writeFirst_split _ _ m A B _ e2 e3 hnd
    rw [this]
    simp only [bind, Except.bind]
    rw [ih (fun w hw' => hw w (by simp [hw'])) (fun q => if q = w.2.2 ++ [w.1, s₁] then
      some (compute w.1 w.2.1 w.2.2) else m q)]
    simp [lastWrite]

theorem append_two_inj {a b : List String} {i j s t : String} (h : a ++ [i, s] = b ++ [j, t]) :
    a = b ∧ i = j ∧ s = t := by
  have := List.append_inj' h (by simp)
  simpa using this

theorem lastWrite_none {α : Type*} (s₁ : String) (compute : String → String → List String → α)
    (ws : List (String × String × List String)) (pt : List String) (i s : String) (hs : s ≠ s₁) (r : Option α) :
    ws.foldl (fun r w => if pt ++ [i, s] = w.2.2 ++ [w.1, s₁] then some (compute w.1 w.2.1 w.2.2) else r) r = r := by
  induction ws generalizing r with
  | nil => rfl
  | cons w ws ih =>
    rw [List.foldl_cons, if_neg (fun h => hs (append_two_inj h).2.2)]
    exact ih r

/-- Writes that do not concern the point leave it unchanged; if some write concerns it, the last one counts. -/
theorem lastWrite_of_last {α : Type*} (s₁ : String) (compute : String → String → List String → α)
    (pre post : List (String × String × List String)) (pt : List String) (i s : String)
    (hpost : ∀ w ∈ post, ¬ (w.1 = i ∧ w.2.2 = pt)) (r : Option α) :
    (pre ++ (i, s, pt) :: post).foldl
      (fun r w => if pt ++ [i, s₁] = w.2.2 ++ [w.1, s₁] then some (compute w.1 w.2.1 w.2.2) else r) r =
      some (compute i s pt) := by
  rw [List.foldl_append, List.foldl_cons, if_pos rfl]
  generalize hx : some (compute i s pt) = x
  clear hx
  induction post generalizing x with
  | nil => rfl
  | cons w post ih =>
    rw [List.foldl_cons, if_neg]
    · exact ih (fun w hw => hpost w (by simp [hw])) x
    · intro h
      have := append_two_inj h
      exact hpost w (by simp) ⟨this.2.1.symm, this.1.symm⟩

/-- The last write to a point. -/
theorem writes_last (vals : List (List String)) (indys stats : List String) (sl : String) (init : List String)
    (hst : stats = init ++ [sl]) (hi : indys.Nodup) (hv : (product vals).Nodup)
    (i : String) (hmem : i ∈ indys) (pt : List String) (hpt : pt ∈ product vals) :
    ∃ pre post, writes vals indys stats = pre ++ (i, sl, pt) :: post ∧
      ∀ w ∈ post, ¬ (w.1 = i ∧ w.2.2 = pt) := by
  obtain ⟨a, b, e, -⟩ := List.eq_append_cons_of_mem hmem
  obtain ⟨p, q, e', -⟩ := List.eq_append_cons_of_mem hpt
  have hq : pt ∉ q := by
    rw [e', List.nodup_append] at hv
    exact (List.nodup_cons.mp hv.2.1).1
  have hb : i ∉ b := by
    rw [e, List.nodup_append] at hi
    exact (List.nodup_cons.mp hi.2.1).1
  refine ⟨a.flatMap (fun i => stats.flatMap (fun s => (product vals).map (fun pt => (i, s, pt)))) ++
      (init.flatMap (fun s => (product vals).map (fun pt => (i, s, pt))) ++ p.map (fun pt => (i, sl, pt))),
    q.map (fun pt => (i, sl, pt)) ++
      b.flatMap (fun i => stats.flatMap (fun s => (product vals).map (fun pt => (i, s, pt)))), ?_, ?_⟩
  · unfold writes
    rw [e, List.flatMap_append, List.flatMap_cons]
    conv_lhs => rw [show stats.flatMap (fun s => (product vals).map (fun pt => (i, s, pt))) =
      init.flatMap (fun s => (product vals).map (fun pt => (i, s, pt))) ++
        (p.map (fun pt => (i, sl, pt)) ++ (i, sl, pt) :: q.map (fun pt => (i, sl, pt))) by
      rw [hst, List.flatMap_append]
      conv_lhs => rw [List.flatMap_singleton]
      rw [e', List.map_append, List.map_cons]]
    simp
  · intro w hw
    simp only [List.mem_append, List.mem_map, List.mem_flatMap] at hw
    rcases hw with ⟨x, hx, rfl⟩ | ⟨j, hj, s, -, x, -, rfl⟩
    · exact fun h => hq (h.2 ▸ hx)
    · exact fun h => hb (h.1 ▸ hj)

/-- What the output contains, for plain distinct series values, distinct independent values and distinct
statistics: the rows of the first statistic hold the result of the LAST statistic, all other rows stay empty. -/
theorem C45_rows {α : Type*} (vals : List (List String)) (indys : List String) (s₁ sl : String)
    (stats rest init : List String) (h₁ : stats = s₁ :: rest) (h₂ : stats = init ++ [sl])
    (hvals : ∀ l ∈ vals, l.Nodup ∧ ∀ v ∈ l, PlainValue v) (hi : indys.Nodup) (hs : stats.Nodup)
    (compute : String → String → List String → α) :
    ∃ rows, objectBootstrap vals indys stats compute = .ok rows ∧
      rows.map Prod.fst = product (vals ++ [indys, stats]) ∧
      ∀ pt ∈ product vals, ∀ i ∈ indys, ∀ s ∈ stats, ∀ r, (pt ++ [i, s], r) ∈ rows →
        r = if s = s₁ then some (compute i sl pt) else none := by
  have hnd : (product (vals ++ [indys, stats])).Nodup := by
    apply nodup_product
    intro l hl
    simp only [List.mem_append, List.mem_cons, List.not_mem_nil, or_false] at hl
    rcases hl with hl | rfl | rfl
    · exact (hvals l hl).1
    · exact hi
    · exact hs
  have hw : ∀ w ∈ writes vals indys stats, w.1 ∈ indys ∧ w.2.2 ∈ product vals := by
    intro w hw
    simp only [writes, List.mem_flatMap, List.mem_map] at hw
    obtain ⟨i, hi, s, -, pt, hpt, rfl⟩ := hw
    exact ⟨hi, hpt⟩
  refine ⟨_, run_writes vals indys stats s₁ rest h₁ hnd (fun l hl => (hvals l hl).2) compute _ hw (fun _ => none),
    by simp [List.map_map, Function.comp_def], ?_⟩
  intro pt hpt i hmem s hsm r hr
  simp only [List.mem_map, Prod.mk.injEq] at hr
  obtain ⟨k, -, rfl, rfl⟩ := hr
  unfold lastWrite
  by_cases hss : s = s₁
  · subst hss
    obtain ⟨pre, post, e, hpost⟩ := writes_last vals indys stats sl init h₂ hi
      (nodup_product _ (fun l hl => (hvals l hl).1)) i hmem pt hpt
    rw [e, if_pos rfl]
    exact lastWrite_of_last s compute pre post pt i sl hpost none
  · rw [if_neg hss]
    exact lastWrite_none s₁ compute _ pt i s hss none

/-- C45 for one statistic: every row holds the result of its own combination.  Missing: several statistics, for
which the property is false (`C45_counterexample`, `C45_rows`), and grouped or numeric series values, for which
the run fails (`C45_unplain_counterexample`). -/
theorem C45_one_statistic_partial {α : Type*} (vals : List (List String)) (indys : List String) (s : String)
    (hvals : ∀ l ∈ vals, l.Nodup ∧ ∀ v ∈ l, PlainValue v) (hi : indys.Nodup)
    (compute : String → String → List String → α) :
    ∃ rows, objectBootstrap vals indys [s] compute = .ok rows ∧
      rows.map Prod.fst = product (vals ++ [indys, [s]]) ∧
      ∀ pt ∈ product vals, ∀ i ∈ indys, ∀ r, (pt ++ [i, s], r) ∈ rows → r = some (compute i s pt) := by
  obtain ⟨rows, h1, h2, h3⟩ := C45_rows vals indys s s [s] [] [] rfl rfl hvals hi (by simp) compute
  refine ⟨rows, h1, h2, ?_⟩
  intro pt hpt i hm r hr
  have := h3 pt hpt i hm s (by simp) r hr
  simpa using this

/-- C45 as stated is false: with two statistics the row of the first holds the second, the row of the second is
empty. -/
theorem C45_counterexample :
    objectBootstrap [["m1", "m2"]] ["0"] ["ratio_fsa_asa", "area"] (fun i s pt => (i, s, pt)) =
      .ok [(["m1", "0", "ratio_fsa_asa"], some ("0", "area", ["m1"])), (["m1", "0", "area"], none),
        (["m2", "0", "ratio_fsa_asa"], some ("0", "area", ["m2"])), (["m2", "0", "area"], none)] := by
  decide +kernel

/-- A grouped or a numeric series value makes the run fail. -/
theorem C45_unplain_counterexample :
    objectBootstrap [["m1:m2"]] ["0"] ["area"] (fun i s pt => (i, s, pt)) = .error .indexError ∧
    objectBootstrap [["12"]] ["0"] ["area"] (fun i s pt => (i, s, pt)) = .error .indexError := by
  constructor <;> rfl

/-- The parts of a text split at a character do not contain it. -/
theorem splitAt1_no_sep (sep : Char) (cs : List Char) : ∀ w ∈ splitAt1 sep cs, sep ∉ w := by
  induction cs with
  | nil => simp [splitAt1]
  | cons c cs ih =>
    intro w hw
    rw [splitAt1] at hw
    cases e : splitAt1 sep cs with
    | nil =>
      have : ∀ l : List Char, splitAt1 sep l ≠ [] := by
        intro l
        induction l with
        | nil => simp [splitAt1]
        | cons d l ih' =>
          rw [splitAt1]
          split
          · simp
          · split <;> simp
      exact absurd e (this cs)
    | cons a l =>
      rw [e] at hw ih
      simp only at hw
      split at hw
      · rcases List.mem_cons.mp hw with rfl | hw
        · simp
        · exact ih w hw
      · next hc =>
        rcases List.mem_cons.mp hw with rfl | hw
        · have h1 := ih a (by simp)
          have h2 : sep ≠ c := fun h => hc (by simp [h])
          simp [h1, h2]
        · exact ih w (by simp [hw])

/-- A cell with ':' is matched by no series value. -/
theorem matchesOut_group (cell v : String) (hc : ':' ∈ cell.toList) : matchesOut cell v = false := by
  by_contra hne
  rw [Bool.not_eq_false] at hne
  simp only [matchesOut, List.any_eq_true, Bool.and_eq_true, beq_iff_eq] at hne
  obtain ⟨p, hp, -, rfl⟩ := hne
  unfold filterParts at hp
  split at hp
  · obtain ⟨w, hw, rfl⟩ := List.mem_map.mp hp
    exact splitAt1_no_sep _ _ w hw (by simpa using hc)
  · next hv =>
    have hv' : ':' ∉ v.toList := by simpa using hv
    split at hp
    · obtain ⟨w, hw, rfl⟩ := List.mem_map.mp hp
      have sub : ∀ (cs : List Char), ':' ∉ cs → ∀ w ∈ splitAt1 ';' cs, ':' ∉ w := by
        intro cs
        induction cs with
        | nil => simp [splitAt1]
        | cons c cs ih =>
          intro h w hw
          simp only [List.mem_cons, not_or] at h
          rw [splitAt1] at hw
          cases e : splitAt1 ';' cs with
          | nil => rw [e] at hw; simp only [List.mem_singleton] at hw; subst hw; simpa using h.1
          | cons a l =>
            have ih := ih h.2
            rw [e] at hw ih
            simp only at hw
            split at hw
            · rcases List.mem_cons.mp hw with rfl | hw
              · simp
              · exact ih w hw
            · rcases List.mem_cons.mp hw with rfl | hw
              · simp [h.1, ih a (by simp)]
              · exact ih w (by simp [hw])
      exact sub _ hv' w hw (by simpa using hc)
    · simp only [List.mem_singleton] at hp
      subst hp
      exact hv' hc

theorem writeFirst_keeps {α : Type*} (p : List String → Bool) (x : α) (q : List String → Prop)
    (hq : ∀ k, q k → p k = false) :
    ∀ rows rows' : List (List String × Option α), writeFirst p x rows = .ok rows' →
      (∀ k r, (k, r) ∈ rows → q k → r = none) → ∀ k r, (k, r) ∈ rows' → q k → r = none := by
  intro rows
  induction rows with
  | nil => intro rows' h; simp [writeFirst] at h
  | cons a rows ih =>
    obtain ⟨k₀, r₀⟩ := a
    intro rows' h hn k r hm hk
    rw [writeFirst] at h
    split at h
    · next hp =>
      simp only [Except.ok.injEq] at h
      rw [← h] at hm
      rcases List.mem_cons.mp hm with e | hm
      · simp only [Prod.mk.injEq] at e
        rw [← e.1, hq k hk] at hp
        simp at hp
      · exact hn k r (by simp [hm]) hk
    · split at h
      · next rest' e =>
        simp only [Except.ok.injEq] at h
        rw [← h] at hm
        rcases List.mem_cons.mp hm with e' | hm
        · exact hn k r (by simp [e']) hk
        · exact ih rest' e (fun k r h1 h2 => hn k r (by simp [h1]) h2) k r hm hk
      · simp at h

/-- C45 fails for groups: the output row of a series value that is a group ("m1:m2") never gets a result, whatever the
other values, statistics and results are. -/
theorem C45_group_row_empty {α : Type*} (vals : List (List String)) (indys stats : List String)
    (compute : String → String → List String → α) (rows : List (List String × Option α))
    (h : objectBootstrap vals indys stats compute = .ok rows) (pt : List String) (i s : String) (r : Option α)
    (hr : (pt ++ [i, s], r) ∈ rows) (v : String) (hv : v ∈ pt) (hg : ':' ∈ v.toList) : r = none := by
  have hmatch : ∀ (q : List String) (j : String) (pt : List String), v ∈ pt → matchPoint q j (pt ++ [i, s]) = false := by
    intro q j pt
    induction pt generalizing q with
    | nil => intro h; simp at h
    | cons c pt ih =>
      intro hv
      cases q with
      | nil => cases pt <;> simp [matchPoint]
      | cons w q =>
        rw [List.cons_append, matchPoint]
        rcases List.mem_cons.mp hv with rfl | hv
        · rw [matchesOut_group _ _ hg]; rfl
        · rw [ih q hv, Bool.and_false]
  have key : ∀ (ws : List (String × String × List String)) (rows rows' : List (List String × Option α)),
      ws.foldlM (fun rows w => writeFirst (matchPoint w.2.2 w.1) (compute w.1 w.2.1 w.2.2) rows) rows = .ok rows' →
      (∀ k r, (k, r) ∈ rows → k = pt ++ [i, s] → r = none) →
      ∀ k r, (k, r) ∈ rows' → k = pt ++ [i, s] → r = none := by
    intro ws
    induction ws with
    | nil =>
      intro rows rows' h hn
      simp only [List.foldlM_nil, pure, Except.pure, Except.ok.injEq] at h
      rw [← h]; exact hn
    | cons w ws ih =>
      intro rows rows' h hn
      simp only [List.foldlM_cons, bind, Except.bind] at h
      split at h
      · simp at h
      · next rows₁ e =>
        exact ih rows₁ rows' h (writeFirst_keeps _ _ (fun k => k = pt ++ [i, s])
          (fun k hk => by rw [hk]; exact hmatch _ _ _ hv) _ _ e hn)
  refine key _ _ _ h ?_ _ r hr rfl
  intro k r hm _
  obtain ⟨k', _, e⟩ := List.mem_map.mp hm
  simp only [Prod.mk.injEq] at e
  exact e.2.symm

/-- The group's result lands in the row of its first member. -/
example : objectBootstrap [["m1", "m1:m2"]] ["0"] ["area"] (fun i s pt => (i, s, pt)) =
    .ok [(["m1", "0", "area"], some ("0", "area", ["m1:m2"])), (["m1:m2", "0", "area"], none)] := by
  decide +kernel

/-- A case of `C45_one_statistic_partial`. -/
example : (∀ l ∈ [["m1", "m2"], ["obs"]], l.Nodup ∧ ∀ v ∈ l, PlainValue v) := by
  unfold PlainValue
  decide +kernel

/-! ### C46 -/

/-- The rows of a resample: the rows of each drawn case, once per draw. -/
def drawnRows (k : ℕ) (rows : List (List Val)) (cases : List String) : List (List Val) :=
  cases.flatMap (fun c => rows.filter (fun r => (cellAt r k).text = c))

/-- C46 for resamples in which every case was drawn at most once.  Missing: repeated cases, for which it is false
(`C46_counterexample`). -/
theorem C46_distinct_partial (k : ℕ) (rows : List (List Val)) (cases : List String) (h : cases.Nodup) :
    (resampledRows k rows cases).Perm (drawnRows k rows cases) := by
  induction cases with
  | nil => simp [resampledRows, drawnRows]
  | cons c cases ih =>
    rw [List.nodup_cons] at h
    have ih := ih h.2
    unfold drawnRows at *
    rw [List.flatMap_cons]
    refine List.Perm.trans ?_ (List.Perm.append_left _ ih)
    unfold resampledRows
    refine List.Perm.trans (List.filter_append_perm (fun r => decide ((cellAt r k).text = c)) _).symm ?_
    rw [List.filter_filter, List.filter_filter]
    apply List.Perm.append
    · apply List.Perm.of_eq
      apply List.filter_congr
      intro r _
      by_cases hr : (cellAt r k).text = c <;> simp [hr]
    · apply List.Perm.of_eq
      apply List.filter_congr
      intro r _
      by_cases hr : (cellAt r k).text = c
      · simp [hr, h.1]
      · simp [hr]

/-- The resampled rows depend only on which cases were drawn, not on how often. -/
theorem C46_only_the_set_matters (k : ℕ) (rows : List (List Val)) (cases cases' : List String)
    (h : ∀ c, c ∈ cases ↔ c ∈ cases') : resampledRows k rows cases = resampledRows k rows cases' := by
  unfold resampledRows
  apply List.filter_congr
  intro r _
  simp [h]

/-- Consequently a statistic cannot distinguish a resample from the one without repetitions. -/
theorem C46_statistic_ignores_draws (s : ModeStat) (f : Frame) (cases : List String) :
    resampleStat s f cases = resampleStat s f cases.dedup := by
  unfold resampleStat
  cases f.col "case" with
  | error e => rfl
  | ok k =>
    simp only [bind, Except.bind]
    rw [C46_only_the_set_matters k f.rows cases cases.dedup (fun c => List.mem_dedup.symm)]

/-- Four objects in two cases. -/
def exObjects : Frame :=
  { cols := ["case", "simple_flag", "matched_flag"],
    rows := [[.str "c1", .num 1 "1", .num 1 "1"], [.str "c1", .num 1 "1", .num 0 "0"],
      [.str "c2", .num 1 "1", .num 1 "1"], [.str "c2", .num 0 "0", .num 1 "1"]] }

/-- C46 as stated is false: the resample c1, c1, c1, c2 gives the share of matched simple objects 2/3 where the drawn
rows give 4/7. -/
theorem C46_counterexample :
    resampleStat (.ratio [("simple_flag", 1), ("matched_flag", 1)] [("simple_flag", 1)]) exObjects
      ["c1", "c1", "c1", "c2"] = .ok (some (roundHalfUp (2 / 3) 7)) ∧
    modeCount (.ratio [("simple_flag", 1), ("matched_flag", 1)] [("simple_flag", 1)])
      { exObjects with rows := drawnRows 0 exObjects.rows ["c1", "c1", "c1", "c2"] } =
      .ok (some (roundHalfUp (4 / 7) 7)) ∧ roundHalfUp (2 / 3 : ℚ) 7 ≠ roundHalfUp (4 / 7 : ℚ) 7 := by
  decide +kernel

example : (resampledRows 0 exObjects.rows ["c2", "c1"]).length = 4 := by decide +kernel

end Metcalcpy.Props
