/-
C01  Event equalization keeps exactly the common cases.
C02  Event equalization preserves order, never invents rows and is idempotent.
C03  Event equalization does not depend on the order in which series are listed.
-/
import Verif.Lemmas.EventEqualize
import Verif.Spec.EventEqualize

namespace Metcalcpy.Props
open Metcalcpy Spec

/-- The case key always exists and is unique, so `key` below is no restriction. -/
theorem C01_case_key_exists {f : Frame} {indy : String} {byIndep : Bool} (I : EqInput f indy byIndep) :
    ∃ key : List Val → String, ∀ r ∈ f.rows, ∀ k, IsCaseKey f indy byIndep r k ↔ k = key r := by
  obtain ⟨wf, nokey, valid, lead, indep⟩ := I
  set vname := (if "fcst_valid_beg" ∈ f.cols then "fcst_valid_beg" else "fcst_valid") with hvn
  have hv : vname ∈ f.cols := by
    rw [hvn]; split
    · assumption
    · tauto
  obtain ⟨v, hvi⟩ := Frame.idx?_of_mem hv
  obtain ⟨l, hli⟩ := Frame.idx?_of_mem lead
  by_cases hby : byIndep = true ∧ indy ∉ timeColumns
  · obtain ⟨i, hii⟩ := Frame.idx?_of_mem (indep hby.1 hby.2)
    refine ⟨fun r => (cellAt r v).text ++ " " ++ (cellAt r l).text ++ " " ++ (cellAt r i).text,
      fun r hr k => ?_⟩
    simp only [IsCaseKey, if_pos hby, ← hvn]
    constructor
    · rintro ⟨a, b, h1, h2, c, h3, h4⟩
      rw [hasCell_unique hvi h1, hasCell_unique hli h2, hasCell_unique hii h3, h4]
    · intro h
      exact ⟨_, _, hasCell_cellAt hvi (wf r hr), hasCell_cellAt hli (wf r hr), _,
        hasCell_cellAt hii (wf r hr), h⟩
  · refine ⟨fun r => (cellAt r v).text ++ " " ++ (cellAt r l).text, fun r hr k => ?_⟩
    simp only [IsCaseKey, if_neg hby, ← hvn]
    constructor
    · rintro ⟨a, b, h1, h2, h4⟩
      rw [hasCell_unique hvi h1, hasCell_unique hli h2, h4]
    · intro h
      exact ⟨_, _, hasCell_cellAt hvi (wf r hr), hasCell_cellAt hli (wf r hr), h⟩

open Classical in
/-- C01, main statement.  Let `vars` be the variables to equalize over with their listed values (none
of them empty), all of them columns of the frame.  Then `event_equalize` succeeds, the caller's frame
gains the key column, and the result consists of exactly the rows whose case is common to all series,
in their original order. -/
theorem C01_keeps_exactly_common_cases (f : Frame) (indy : String) (byIndep : Bool)
    (series : List (String × List String)) (fixVars : List String) (fixVals : List (List String))
    (vars : List (String × List String)) (key : List Val → String)
    (I : EqInput f indy byIndep)
    (hvars : addFixVars (seriesVarsForEE series) fixVars fixVals = .ok vars)
    (hcols : ∀ v ∈ vars, v.1 ∈ f.cols) (hne : ∀ v ∈ vars, v.2 ≠ [])
    (hkey : ∀ r ∈ f.rows, IsCaseKey f indy byIndep r (key r)) :
    ∃ f' out, eventEqualize f indy series fixVars fixVals byIndep = .ok (f', out) ∧
      f'.cols = f.cols ++ ["equalize"] ∧ out.cols = f'.cols ∧
      f'.rows = f.rows.map (fun r => r ++ [.str (key r)]) ∧
      out.rows = (f.rows.filter (fun r => decide (IsCommonCase f vars key r))).map
        (fun r => r ++ [.str (key r)]) := by
  have wf := I.wf
  obtain ⟨cases, h1, h2⟩ := eq_core (withKey_wf (key := key) wf) f.cols.length
    (vars := vars) (fun v hv => by simp [withKey, hcols v hv])
  have hcol : (withKey f key).col "equalize" = .ok f.cols.length := by
    simp [Frame.col, withKey_key I.nokey]
  refine ⟨withKey f key, (withKey f key).filterRows (fun r => decide ((cellAt r f.cols.length).text ∈ cases)),
    ?_, rfl, ?_, rfl, ?_⟩
  · unfold eventEqualize
    rw [addKeyColumn_ok I hkey]
    simp only [bind, Except.bind, hvars, hcol, h1]
    rfl
  · rfl
  · simp only [Frame.filterRows, withKey, List.filter_map]
    congr 1
    apply List.filter_congr
    intro r hr
    simp only [Function.comp, decide_eq_decide]
    rw [cellAt_append_last (wf r hr), h2]
    simp only [Val.text]
    constructor
    · rintro ⟨-, h⟩ p hp
      obtain ⟨x, hx, h3, h4⟩ := h p hp
      obtain ⟨r', hr', rfl⟩ := List.mem_map.mp hx
      refine ⟨r', hr', ?_, ?_⟩
      · refine (inSeries_withKey (fun q hq => ?_) (wf r' hr')).mp h3
        obtain ⟨y, hy, he⟩ := List.mem_map.mp (choice_fst hp q hq)
        rw [← he]; exact hcols y hy
      · rw [cellAt_append_last (wf r' hr')] at h4
        simpa [Val.text] using h4
    · intro h
      refine ⟨hne, fun p hp => ?_⟩
      obtain ⟨r', hr', h3, h4⟩ := h p hp
      refine ⟨r' ++ [.str (key r')], List.mem_map.mpr ⟨r', hr', rfl⟩, ?_, ?_⟩
      · refine (inSeries_withKey (fun q hq => ?_) (wf r' hr')).mpr h3
        obtain ⟨y, hy, he⟩ := List.mem_map.mp (choice_fst hp q hq)
        rw [← he]; exact hcols y hy
      · rw [cellAt_append_last (wf r' hr')]
        simpa [Val.text] using h4

/-- C01, the degenerate case: a variable with an empty list of values leaves no row. -/
theorem C01_empty_value_list (f : Frame) (indy : String) (byIndep : Bool)
    (series : List (String × List String)) (fixVars : List String) (fixVals : List (List String))
    (vars : List (String × List String))
    (I : EqInput f indy byIndep)
    (hvars : addFixVars (seriesVarsForEE series) fixVars fixVals = .ok vars)
    (hcols : ∀ v ∈ vars, v.1 ∈ f.cols) (hempty : ∃ v ∈ vars, v.2 = []) :
    ∃ f' out, eventEqualize f indy series fixVars fixVals byIndep = .ok (f', out) ∧ out.rows = [] := by
  obtain ⟨key, hk⟩ := C01_case_key_exists I
  have hkey : ∀ r ∈ f.rows, IsCaseKey f indy byIndep r (key r) := fun r hr => (hk r hr _).mpr rfl
  obtain ⟨cases, h1, h2⟩ := eq_core (withKey_wf (key := key) I.wf) f.cols.length
    (vars := vars) (fun v hv => by simp [withKey, hcols v hv])
  have hcol : (withKey f key).col "equalize" = .ok f.cols.length := by
    simp [Frame.col, withKey_key I.nokey]
  refine ⟨withKey f key, (withKey f key).filterRows (fun r => decide ((cellAt r f.cols.length).text ∈ cases)), ?_, ?_⟩
  · unfold eventEqualize
    rw [addKeyColumn_ok I hkey]
    simp only [bind, Except.bind, hvars, hcol, h1]
    rfl
  · simp only [Frame.filterRows, List.filter_eq_nil_iff, decide_eq_true_eq]
    intro r _ hc
    obtain ⟨v, hv, h0⟩ := hempty
    exact ((h2 _).mp hc).1 v hv h0

/-- C01: an unknown variable is reported (KeyError), not ignored. -/
theorem C01_unknown_variable (f : Frame) (indy : String) (byIndep : Bool)
    (series : List (String × List String)) (fixVars : List String) (fixVals : List (List String))
    (vars : List (String × List String)) (I : EqInput f indy byIndep)
    (hvars : addFixVars (seriesVarsForEE series) fixVars fixVals = .ok vars)
    (hne : ∀ v ∈ vars, v.2 ≠ []) (hbad : ∃ v ∈ vars, v.1 ∉ f.cols ∧ v.1 ≠ "equalize") :
    eventEqualize f indy series fixVars fixVals byIndep = .error .keyError := by
  obtain ⟨key, hk⟩ := C01_case_key_exists I
  have hkey : ∀ r ∈ f.rows, IsCaseKey f indy byIndep r (key r) := fun r hr => (hk r hr _).mpr rfl
  have hcol : (withKey f key).col "equalize" = .ok f.cols.length := by
    simp [Frame.col, withKey_key I.nokey]
  have hselp : ∀ (p : List (String × String)) (rows : List (List Val)),
      (∃ q ∈ p, q.1 ∉ f.cols ∧ q.1 ≠ "equalize") →
      selectPermutation (withKey f key) p rows = .error .keyError := by
    intro p
    induction p with
    | nil => intro rows h; simp at h
    | cons q p ih =>
      obtain ⟨var, val⟩ := q
      intro rows h
      cases hi : (withKey f key).idx? var with
      | none => simp [selectPermutation, hi]
      | some i =>
        simp only [selectPermutation, hi]
        apply ih
        obtain ⟨q, hq, h1, h2⟩ := h
        rcases List.mem_cons.mp hq with rfl | hq
        · exfalso
          have : (withKey f key).idx? var = none := by
            rw [Frame.idx?_eq_none]; simp [withKey, h1, h2]
          rw [hi] at this; simp at this
        · exact ⟨q, hq, h1, h2⟩
  have hp : ∃ p ps, product (vars.map Prod.snd) = p :: ps := by
    cases hprod : product (vars.map Prod.snd) with
    | nil =>
      obtain ⟨v, hv, h0⟩ := List.mem_map.mp (product_eq_nil.mp hprod)
      exact absurd h0 (hne v hv)
    | cons p ps => exact ⟨p, ps, rfl⟩
  obtain ⟨p, ps, hprod⟩ := hp
  have hlen : p.length = vars.length := by
    have := length_of_mem_product (hprod ▸ List.mem_cons_self : p ∈ product (vars.map Prod.snd))
    simpa using this
  have hzip : ∃ q ∈ (vars.map Prod.fst).zip p, q.1 ∉ f.cols ∧ q.1 ≠ "equalize" := by
    obtain ⟨v, hv, hb⟩ := hbad
    obtain ⟨i, hi, hvi⟩ := List.mem_iff_getElem.mp hv
    refine ⟨((vars.map Prod.fst).zip p)[i]'(by simp; omega), List.getElem_mem _, ?_⟩
    simpa [hvi] using hb
  unfold eventEqualize
  rw [addKeyColumn_ok I hkey]
  simp only [bind, Except.bind, hvars, hcol, hprod, equalizationCases, hselp _ _ hzip]

/-! ### C02 -/

/-- C02: the returned rows are a subsequence of the caller's rows (with their key), in order, for every
call that succeeds. -/
theorem C02_subsequence (f : Frame) (indy : String) (series : List (String × List String))
    (fixVars : List String) (fixVals : List (List String)) (byIndep : Bool) (f' out : Frame)
    (h : eventEqualize f indy series fixVars fixVals byIndep = .ok (f', out)) :
    out.cols = f'.cols ∧ out.rows.Sublist f'.rows := by
  simp only [eventEqualize, bind, Except.bind] at h
  split at h
  · simp at h
  · split at h
    · simp at h
    · split at h
      · simp at h
      · split at h
        · simp at h
        · simp only [pure, Except.pure, Except.ok.injEq, Prod.mk.injEq] at h
          obtain ⟨rfl, rfl⟩ := h
          exact ⟨rfl, List.filter_sublist⟩

/-- C02: equalizing the result again with the same settings changes nothing.  With the independent
variable in the key, the second call appends it once more; this is harmless when the key already
determines the independent value (hypothesis `hindep`, e.g. values without blanks, see
`C02_key_determines_independent`). -/
theorem C02_idempotent (f : Frame) (indy : String) (byIndep : Bool)
    (series : List (String × List String)) (fixVars : List String) (fixVals : List (List String))
    (vars : List (String × List String)) (key : List Val → String)
    (I : EqInput f indy byIndep)
    (hvars : addFixVars (seriesVarsForEE series) fixVars fixVals = .ok vars)
    (hcols : ∀ v ∈ vars, v.1 ∈ f.cols) (hne : ∀ v ∈ vars, v.2 ≠ [])
    (hkey : ∀ r ∈ f.rows, IsCaseKey f indy byIndep r (key r))
    (hindep : byIndep = true → indy ∉ timeColumns → ∀ r ∈ f.rows, ∀ s ∈ f.rows, key r = key s →
      ∀ v w, HasCell f r indy v → HasCell f s indy w → v.text = w.text) :
    ∃ f' out, eventEqualize f indy series fixVars fixVals byIndep = .ok (f', out) ∧
      ∃ f'' out', eventEqualize out indy series fixVars fixVals byIndep = .ok (f'', out') ∧
        out'.rows = f''.rows ∧ f''.rows.map List.dropLast = out.rows.map List.dropLast := by
  classical
  obtain ⟨f', out, h1, hc', hco, hr', hro⟩ := C01_keeps_exactly_common_cases f indy byIndep series
    fixVars fixVals vars key I hvars hcols hne hkey
  refine ⟨f', out, h1, ?_⟩
  have wf := I.wf
  set kept := f.rows.filter (fun r => decide (IsCommonCase f vars key r)) with hkept
  set base : Frame := { cols := f.cols, rows := kept } with hbase
  have wfb : FrameWF base := fun r hr => wf r (List.mem_filter.mp hr).1
  have hout : out = withKey base key := by
    have : out = ⟨out.cols, out.rows⟩ := rfl
    rw [this, hco, hc', hro]; rfl
  -- the key after the second call
  obtain ⟨key2, hk2, hkey2⟩ : ∃ key2 : List Val → String,
      addKeyColumn out indy byIndep = .ok (withKey base key2) ∧
      ∀ r ∈ kept, ∀ s ∈ kept, key r = key s → key2 r = key2 s := by
    have hmem : "equalize" ∈ out.cols := by rw [hco, hc']; simp
    by_cases hby : byIndep = true ∧ indy ∉ timeColumns
    · have hi := I.indep hby.1 hby.2
      obtain ⟨i, hii⟩ := Frame.idx?_of_mem hi
      have hii' : base.idx? indy = some i := hii
      have hib : indy ∈ base.cols := hi
      have hnk : "equalize" ∉ base.cols := I.nokey
      refine ⟨fun r => key r ++ " " ++ (cellAt r i).text, ?_, ?_⟩
      · unfold addKeyColumn
        simp only [hmem, if_true, bind, Except.bind]
        rw [timeColumns_eq, if_pos hby, hout]
        have e1 : (withKey base key).col "equalize" = .ok f.cols.length := by
          simp only [Frame.col, withKey_key hnk]; rfl
        have e2 : (withKey base key).col indy = .ok i := by
          simp [Frame.col, withKey_idx hib, hii']
        rw [e1, e2]
        simp only [Frame.setCol, withKey_key hnk]
        congr 1
        simp only [withKey, Frame.mk.injEq, true_and, List.map_map]
        apply List.map_congr_left
        intro r hr
        have hrl : r.length = f.cols.length := wfb r hr
        have hil := Frame.idx?_lt hii
        simp only [Function.comp]
        have hbl : base.cols.length = f.cols.length := rfl
        rw [hbl, cellAt_append_last hrl, cellAt_append_lt (by omega), ← hrl]
        simp [Val.text]
      · intro r hr s hs hrs
        have hrf := (List.mem_filter.mp hr).1
        have hsf := (List.mem_filter.mp hs).1
        have := hindep hby.1 hby.2 r hrf s hsf hrs _ _
          (hasCell_cellAt hii (wf r hrf)) (hasCell_cellAt hii (wf s hsf))
        simp only [hrs, this]
    · refine ⟨key, ?_, fun _ _ _ _ h => h⟩
      unfold addKeyColumn
      simp only [hmem, if_true, bind, Except.bind]
      rw [timeColumns_eq, if_neg hby, hout]
  have hcolsb : ∀ v ∈ vars, v.1 ∈ (withKey base key2).cols := fun v hv => by
    simp [withKey, hbase, hcols v hv]
  obtain ⟨cases, g1, g2⟩ := eq_core (withKey_wf (key := key2) wfb) f.cols.length (vars := vars) hcolsb
  have hnk : "equalize" ∉ base.cols := I.nokey
  have hcol : (withKey base key2).col "equalize" = .ok f.cols.length := by
    simp only [Frame.col, withKey_key hnk]; rfl
  refine ⟨withKey base key2, (withKey base key2).filterRows
    (fun r => decide ((cellAt r f.cols.length).text ∈ cases)), ?_, ?_, ?_⟩
  · unfold eventEqualize
    rw [hk2]
    simp only [bind, Except.bind, hvars, hcol, g1]
    rfl
  · simp only [Frame.filterRows]
    rw [List.filter_eq_self]
    intro x hx
    obtain ⟨r, hr, rfl⟩ := List.mem_map.mp hx
    have hr0 : r ∈ kept := hr
    simp only [decide_eq_true_eq]
    rw [cellAt_append_last (wfb r hr), g2]
    refine ⟨hne, fun p hp => ?_⟩
    have hrk := (List.mem_filter.mp hr0)
    have hcommon : IsCommonCase f vars key r := by simpa using hrk.2
    obtain ⟨r', hr', h3, h4⟩ := hcommon p hp
    have hr'k : r' ∈ kept := by
      rw [hkept, List.mem_filter]
      refine ⟨hr', ?_⟩
      simp only [decide_eq_true_eq]
      intro p' hp'
      obtain ⟨r'', hr'', h5, h6⟩ := hcommon p' hp'
      exact ⟨r'', hr'', h5, h6.trans h4.symm⟩
    refine ⟨r' ++ [.str (key2 r')], List.mem_map.mpr ⟨r', hr'k, rfl⟩, ?_, ?_⟩
    · have hq : ∀ q ∈ p, q.1 ∈ base.cols := fun q hq => by
        obtain ⟨y, hy, he⟩ := List.mem_map.mp (choice_fst hp q hq)
        rw [← he]; exact hcols y hy
      exact (inSeries_withKey hq (wfb r' hr'k)).mpr h3
    · rw [cellAt_append_last (wfb r' hr'k)]
      simpa [Val.text] using hkey2 r' hr'k r hr0 h4
  · rw [hout]
    simp [withKey]

/-- C02: if the texts of the independent variable contain no blank, the key determines them. -/
theorem C02_key_determines_independent (f : Frame) (indy : String) (hexc : indy ∉ timeColumns)
    (r s : List Val) (k : String) (hr : IsCaseKey f indy true r k) (hs : IsCaseKey f indy true s k)
    (v w : Val) (hv : HasCell f r indy v) (hw : HasCell f s indy w)
    (hbv : ' ' ∉ v.text.toList) (hbw : ' ' ∉ w.text.toList) : v.text = w.text := by
  have key : ∀ (a b c d : List Char), ' ' ∉ b → ' ' ∉ d → a ++ ' ' :: b = c ++ ' ' :: d → b = d := by
    have aux : ∀ (x y z w : List Char), ' ' ∉ x → ' ' ∉ z → x ++ ' ' :: y = z ++ ' ' :: w → x = z := by
      intro x
      induction x with
      | nil =>
        intro y z w _ hz h
        cases z with
        | nil => rfl
        | cons c z => simp at h; exact absurd h.1 (fun e => hz (by simp [← e]))
      | cons c x ih =>
        intro y z w hx hz h
        cases z with
        | nil => simp at h; exact absurd h.1 (fun e => hx (by simp [e]))
        | cons d z =>
          simp at h
          rw [h.1, ih y z w (fun hm => hx (by simp [hm])) (fun hm => hz (by simp [hm])) h.2]
    intro a b c d hb hd h
    have h' := congrArg List.reverse h
    simp only [List.reverse_append, List.reverse_cons, List.append_assoc, List.singleton_append] at h'
    have := aux b.reverse a.reverse d.reverse c.reverse (by simpa using hb) (by simpa using hd) h'
    simpa using this
  have huniq : ∀ {r : List Val} {a b : Val}, HasCell f r indy a → HasCell f r indy b → a = b := by
    intro r a b ha hb
    obtain ⟨i, h1, h2, h3⟩ := ha
    have hi : f.idx? indy = some i := Frame.idx?_eq_some.mpr ⟨h1, h2⟩
    have := hasCell_unique hi hb
    rw [← this, hasCell_unique hi ⟨i, h1, h2, h3⟩]
  obtain ⟨v1, l1, -, -, h1⟩ := hr
  obtain ⟨v2, l2, -, -, h2⟩ := hs
  have hby : true = true ∧ indy ∉ timeColumns := ⟨rfl, hexc⟩
  rw [if_pos hby] at h1 h2
  obtain ⟨x, hx, e1⟩ := h1
  obtain ⟨y, hy, e2⟩ := h2
  have hxv := huniq hv hx
  have hyw := huniq hw hy
  rw [hxv] at hbv ⊢
  rw [hyw] at hbw ⊢
  have h := congrArg String.toList (e1.symm.trans e2)
  simp only [String.toList_append] at h
  have hb : (" " : String).toList = [' '] := rfl
  rw [hb, List.append_assoc _ _ x.text.toList, List.append_assoc _ _ y.text.toList,
    List.singleton_append, List.singleton_append] at h
  have := key _ _ _ _ hbv hbw h
  have := congrArg String.ofList this
  simpa [String.ofList_toList] using this

/-! ### C03 -/

theorem choice_same {vars vars' : List (String × List String)} (h : SameValues vars vars')
    (p : List (String × String)) : Choice vars p ↔ Choice vars' p := by
  unfold Choice SameValues at *
  induction h generalizing p with
  | nil => rfl
  | @cons x y l l' hxy hll ih =>
    constructor
    · intro hc
      cases hc with
      | cons h1 h2 => exact List.Forall₂.cons ⟨h1.1.trans hxy.1, (hxy.2 _).mp h1.2⟩ ((ih _).mp h2)
    · intro hc
      cases hc with
      | cons h1 h2 => exact List.Forall₂.cons ⟨h1.1.trans hxy.1.symm, (hxy.2 _).mpr h1.2⟩ ((ih _).mpr h2)

theorem same_ne {vars vars' : List (String × List String)} (h : SameValues vars vars') :
    (∀ v ∈ vars, v.2 ≠ []) ↔ ∀ v ∈ vars', v.2 ≠ [] := by
  induction h with
  | nil => simp
  | @cons x y l l' hxy hll ih =>
    simp only [List.forall_mem_cons, ih]
    refine and_congr_left (fun _ => ?_)
    have : x.2 = [] ↔ y.2 = [] := by
      simp only [List.eq_nil_iff_forall_not_mem, hxy.2]
    exact not_congr this

theorem same_cols {vars vars' : List (String × List String)} (h : SameValues vars vars')
    (cols : List String) : (∀ v ∈ vars, v.1 ∈ cols) ↔ ∀ v ∈ vars', v.1 ∈ cols := by
  induction h with
  | nil => simp
  | @cons x y l l' hxy hll ih => simp only [List.forall_mem_cons, ih, hxy.1]

/-- C03: listing the values of the variables in another order gives the same frame, row by row. -/
theorem C03_value_order (f : Frame) (indy : String) (byIndep : Bool)
    (series series' : List (String × List String)) (fixVars fixVars' : List String)
    (fixVals fixVals' : List (List String)) (vars vars' : List (String × List String))
    (I : EqInput f indy byIndep)
    (hvars : addFixVars (seriesVarsForEE series) fixVars fixVals = .ok vars)
    (hvars' : addFixVars (seriesVarsForEE series') fixVars' fixVals' = .ok vars')
    (hcols : ∀ v ∈ vars, v.1 ∈ f.cols) (hne : ∀ v ∈ vars, v.2 ≠ [])
    (hsame : SameValues vars vars') :
    ∃ f' out, eventEqualize f indy series fixVars fixVals byIndep = .ok (f', out) ∧
      eventEqualize f indy series' fixVars' fixVals' byIndep = .ok (f', out) := by
  classical
  obtain ⟨key, hk⟩ := C01_case_key_exists I
  have hkey : ∀ r ∈ f.rows, IsCaseKey f indy byIndep r (key r) := fun r hr => (hk r hr _).mpr rfl
  obtain ⟨f1, o1, h1, a1, b1, c1, d1⟩ := C01_keeps_exactly_common_cases f indy byIndep series fixVars
    fixVals vars key I hvars hcols hne hkey
  obtain ⟨f2, o2, h2, a2, b2, c2, d2⟩ := C01_keeps_exactly_common_cases f indy byIndep series' fixVars'
    fixVals' vars' key I hvars' ((same_cols hsame _).mp hcols) ((same_ne hsame).mp hne) hkey
  refine ⟨f1, o1, h1, ?_⟩
  rw [h2]
  have ef : f2 = f1 := by
    have e : ∀ g : Frame, g = ⟨g.cols, g.rows⟩ := fun _ => rfl
    rw [e f2, e f1, a1, a2, c1, c2]
  have eo : o2 = o1 := by
    have e : ∀ g : Frame, g = ⟨g.cols, g.rows⟩ := fun _ => rfl
    rw [e o2, e o1, b1, b2, ef, d1, d2]
    congr 2
    apply List.filter_congr
    intro r _
    rw [decide_eq_decide]
    unfold IsCommonCase
    simp only [choice_same hsame]
  rw [ef, eo]

theorem choice_perm {vars vars' : List (String × List String)} (h : vars.Perm vars') :
    ∀ p, Choice vars p → ∃ p', Choice vars' p' ∧ p.Perm p' := by
  unfold Choice
  induction h with
  | nil => intro p hp; exact ⟨p, hp, List.Perm.refl _⟩
  | cons x _ ih =>
    intro p hp
    cases hp with
    | cons h1 h2 =>
      obtain ⟨p', h3, h4⟩ := ih _ h2
      exact ⟨_, List.Forall₂.cons h1 h3, h4.cons _⟩
  | swap x y l =>
    intro p hp
    cases hp with
    | cons h1 h2 =>
      cases h2 with
      | cons h3 h4 => exact ⟨_, List.Forall₂.cons h3 (List.Forall₂.cons h1 h4), List.Perm.swap _ _ _⟩
  | trans _ _ ih1 ih2 =>
    intro p hp
    obtain ⟨p1, h1, h2⟩ := ih1 p hp
    obtain ⟨p2, h3, h4⟩ := ih2 p1 h1
    exact ⟨p2, h3, h2.trans h4⟩

/-- C03: listing the variables in another order gives the same frame, row by row. -/
theorem C03_variable_order (f : Frame) (indy : String) (byIndep : Bool)
    (series series' : List (String × List String)) (fixVars fixVars' : List String)
    (fixVals fixVals' : List (List String)) (vars vars' : List (String × List String))
    (I : EqInput f indy byIndep)
    (hvars : addFixVars (seriesVarsForEE series) fixVars fixVals = .ok vars)
    (hvars' : addFixVars (seriesVarsForEE series') fixVars' fixVals' = .ok vars')
    (hcols : ∀ v ∈ vars, v.1 ∈ f.cols) (hne : ∀ v ∈ vars, v.2 ≠ [])
    (hperm : vars.Perm vars') :
    ∃ f' out, eventEqualize f indy series fixVars fixVals byIndep = .ok (f', out) ∧
      eventEqualize f indy series' fixVars' fixVals' byIndep = .ok (f', out) := by
  classical
  obtain ⟨key, hk⟩ := C01_case_key_exists I
  have hkey : ∀ r ∈ f.rows, IsCaseKey f indy byIndep r (key r) := fun r hr => (hk r hr _).mpr rfl
  obtain ⟨f1, o1, h1, a1, b1, c1, d1⟩ := C01_keeps_exactly_common_cases f indy byIndep series fixVars
    fixVals vars key I hvars hcols hne hkey
  obtain ⟨f2, o2, h2, a2, b2, c2, d2⟩ := C01_keeps_exactly_common_cases f indy byIndep series' fixVars'
    fixVals' vars' key I hvars' (fun v hv => hcols v (hperm.mem_iff.mpr hv))
    (fun v hv => hne v (hperm.mem_iff.mpr hv)) hkey
  refine ⟨f1, o1, h1, ?_⟩
  rw [h2]
  have ef : f2 = f1 := by
    have e : ∀ g : Frame, g = ⟨g.cols, g.rows⟩ := fun _ => rfl
    rw [e f2, e f1, a1, a2, c1, c2]
  have eo : o2 = o1 := by
    have e : ∀ g : Frame, g = ⟨g.cols, g.rows⟩ := fun _ => rfl
    rw [e o2, e o1, b1, b2, ef, d1, d2]
    congr 2
    apply List.filter_congr
    intro r _
    rw [decide_eq_decide]
    have key : ∀ {a b : List (String × List String)}, a.Perm b →
        IsCommonCase f a key r → IsCommonCase f b key r := by
      intro a b hab h p hp
      obtain ⟨p', h3, h4⟩ := choice_perm hab.symm p hp
      obtain ⟨r', h5, h6, h7⟩ := h p' h3
      exact ⟨r', h5, fun q hq => h6 q (h4.mem_iff.mp hq), h7⟩
    exact ⟨key hperm.symm, key hperm⟩
  rw [ef, eo]

/-- C03: presenting the rows in another order keeps the same rows (in the new order). -/
theorem C03_row_order (f g : Frame) (indy : String) (byIndep : Bool)
    (series : List (String × List String)) (fixVars : List String) (fixVals : List (List String))
    (vars : List (String × List String)) (hcol : g.cols = f.cols) (hp : f.rows.Perm g.rows)
    (I : EqInput f indy byIndep)
    (hvars : addFixVars (seriesVarsForEE series) fixVars fixVals = .ok vars)
    (hcols : ∀ v ∈ vars, v.1 ∈ f.cols) (hne : ∀ v ∈ vars, v.2 ≠ []) :
    ∃ f' out g' out', eventEqualize f indy series fixVars fixVals byIndep = .ok (f', out) ∧
      eventEqualize g indy series fixVars fixVals byIndep = .ok (g', out') ∧
      out.cols = out'.cols ∧ out.rows.Perm out'.rows := by
  classical
  obtain ⟨key, hk⟩ := C01_case_key_exists I
  have hkey : ∀ r ∈ f.rows, IsCaseKey f indy byIndep r (key r) := fun r hr => (hk r hr _).mpr rfl
  have I' : EqInput g indy byIndep := by
    obtain ⟨wf, nk, va, le, ind⟩ := I
    refine ⟨fun r hr => ?_, by rwa [hcol], by rwa [hcol], by rwa [hcol], by rwa [hcol]⟩
    rw [hcol]; exact wf r (hp.mem_iff.mpr hr)
  have hcell : ∀ (r : List Val) (n : String) (v : Val), HasCell g r n v ↔ HasCell f r n v := by
    intro r n v; unfold HasCell; rw [hcol]
  have hkey' : ∀ r ∈ g.rows, IsCaseKey g indy byIndep r (key r) := by
    intro r hr
    have := hkey r (hp.mem_iff.mpr hr)
    unfold IsCaseKey at this ⊢
    simpa only [hcell, hcol] using this
  obtain ⟨f1, o1, h1, a1, b1, c1, d1⟩ := C01_keeps_exactly_common_cases f indy byIndep series fixVars
    fixVals vars key I hvars hcols hne hkey
  obtain ⟨f2, o2, h2, a2, b2, c2, d2⟩ := C01_keeps_exactly_common_cases g indy byIndep series fixVars
    fixVals vars key I' hvars (by rwa [hcol]) hne hkey'
  refine ⟨f1, o1, f2, o2, h1, h2, by rw [b1, b2, a1, a2, hcol], ?_⟩
  rw [d1, d2]
  apply List.Perm.map
  have e : ∀ r, decide (IsCommonCase g vars key r) = decide (IsCommonCase f vars key r) := by
    intro r
    simp only [decide_eq_decide, IsCommonCase, InSeries, hcell, hp.mem_iff]
  simp only [e]
  exact hp.filter _

/-! ### A concrete frame meeting the hypotheses -/

/-- Two models; case 12 is common to both, case 24 only in A, case 36 only in B. -/
def exFrame : Frame :=
  { cols := ["model", "fcst_valid_beg", "fcst_lead", "stat_value"]
    rows := [[.str "A", .str "2020-01-01 00:00:00", .num 12 "12", .num 1 "1"],
             [.str "A", .str "2020-01-01 00:00:00", .num 24 "24", .num 2 "2"],
             [.str "B", .str "2020-01-01 00:00:00", .num 36 "36", .num 3 "3"],
             [.str "B", .str "2020-01-01 00:00:00", .num 12 "12", .num 4 "4"]] }

example : EqInput exFrame "fcst_lead" false where
  wf := by unfold FrameWF; decide
  nokey := by decide
  valid := by decide
  lead := by decide
  indep := by decide

example : addFixVars (seriesVarsForEE [("model", ["A:B"])]) [] [] = .ok [("model", ["A", "B"])] := by
  decide +kernel

example : (eventEqualize exFrame "fcst_lead" [("model", ["A", "B"])] [] [] false).map
    (fun x => x.2.rows.map (fun r => cellAt r 3)) = .ok [.num 1 "1", .num 4 "4"] := by
  decide +kernel

end Metcalcpy.Props
