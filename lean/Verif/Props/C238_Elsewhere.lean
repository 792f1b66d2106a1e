/-
C238  write_dataset with a dimension for the valid time: where the attributes of `valid_time` go, and when the file is right.
-/
import Verif.Props.C236_WriteDataset
import Mathlib.Data.List.Nodup

namespace Metcalcpy
namespace Props
open Metcalcpy Spec

theorem setVarAttrs_final (D : List (String × ℕ)) (V : List NcVar) (A : List (String × String)) (v : NcVar) (h : v.name ∉ V.map NcVar.name)
    (as : List (String × String)) :
    (NcFile.mk D (V ++ [v]) A).setVarAttrs v.name as = ⟨D, V ++ [{ v with attrs := as.foldl setAttr v.attrs }], A⟩ := by
  unfold NcFile.setVarAttrs
  congr 1
  rw [List.map_append]
  congr 1
  · conv_rhs => rw [← List.map_id V]
    refine List.map_congr_left fun w hw => ?_
    rw [if_neg]
    · rfl
    · intro e
      exact h (e ▸ List.mem_map.2 ⟨w, hw, rfl⟩)
  · simp

/-- The variable of the valid time. -/
def leadVar (q : ℚ) (init : String) : NcVar :=
  ⟨"valid_time", "float64", ["valid_time"], [q], [("long_name", "valid_time"), ("units", "seconds since " ++ init)]⟩

theorem writeDataset_fields (q : ℚ) (init : String) (ds : XrDataset) (coord : String → DsCoord) (H : PlainDataset ds coord)
    (hv : "valid_time" ∉ ds.dims) :
    writeDataset (.ok (q, init)) true ds =
      (ds.fields.foldlM (writeField true) ((⟨(ds.dims.map fun d => (d, (coord d).values.length)) ++ [("valid_time", 1)],
        ds.dims.map (coordVar coord) ++ [leadVar q init], []⟩ : NcFile), none)).map
        fun s => { s.1 with attrs := ds.attrs.foldl setAttr s.1.attrs } := by
  have hname : ∀ e, (coordVar coord e).name = e := by
    intro e; unfold coordVar; split <;> rfl
  unfold writeDataset
  have e1 := writeDims ds coord H ds.dims [] (by simpa using (List.nodup_append.1 H.names).1) fun _ h => h
  simp only [List.map_nil, List.nil_append] at e1
  rw [NcFile.empty, e1]
  simp only [bind, Except.bind, pure, Except.pure, if_true]
  have e2 : writeValidTime (.ok (q, init)) ⟨ds.dims.map fun d => (d, (coord d).values.length), ds.dims.map (coordVar coord), []⟩ =
      .ok ⟨(ds.dims.map fun d => (d, (coord d).values.length)) ++ [("valid_time", 1)],
        ds.dims.map (coordVar coord) ++ [leadVar q init], []⟩ := by
    unfold writeValidTime NcFile.createDimension
    rw [if_neg (by simpa [Function.comp_def] using hv)]
    simp only [bind, Except.bind]
    rw [createVariable_ok]
    · dsimp only [pure, Except.pure]
      have := setVarAttrs_last ((ds.dims.map fun d => (d, (coord d).values.length)) ++ [("valid_time", 1)]) (ds.dims.map (coordVar coord)) []
        ⟨"valid_time", "float64", ["valid_time"], [q], []⟩ (by simpa [Function.comp_def, hname] using hv) rfl
        [("long_name", "valid_time"), ("units", "seconds since " ++ init)] (by simp)
      dsimp only at this
      rw [this]
      rfl
    · simpa [Function.comp_def, hname] using hv
    · simp
    · intro p _
      exact Or.inr (Or.inl rfl)
  rw [e2]
  dsimp only
  cases ds.fields.foldlM (writeField true) ((⟨(ds.dims.map fun d => (d, (coord d).values.length)) ++ [("valid_time", 1)],
        ds.dims.map (coordVar coord) ++ [leadVar q init], []⟩ : NcFile), none) <;> rfl

/-- C238, extent: when `valid_time` is the first field and has attributes, the writing ends with an UnboundLocalError, whatever else the
Dataset holds. -/
theorem C238_first (q : ℚ) (init : String) (ds : XrDataset) (coord : String → DsCoord) (H : PlainDataset ds coord)
    (hv : "valid_time" ∉ ds.dims) (V : DsField) (post : List DsField) (hf : ds.fields = V :: post) (hV : V.name = "valid_time")
    (ha : V.attrs ≠ []) : writeDataset (.ok (q, init)) true ds = .error (.python .unboundLocalError) := by
  rw [writeDataset_fields q init ds coord H hv, hf, List.foldlM_cons]
  have e : ∀ f : NcFile, writeField true (f, none) V = .error (.python .unboundLocalError) := by
    intro f
    unfold writeField
    simp only [if_true, ne_eq, hV, not_true_eq_false, if_false, bind, Except.bind, pure, Except.pure, ha]
  rw [e]
  rfl

theorem writeField_name (x : DsField) (hx : x.name ≠ "valid_time") (s s' : NcFile × Option String) (h : writeField true s x = .ok s') :
    s'.2 = some x.name := by
  unfold writeField at h
  simp only [if_true, ne_eq, hx, not_false_eq_true, bind, Except.bind, pure, Except.pure] at h
  revert h
  cases s.1.createVariable x.name (if x.dtype ∈ plainTypes then x.dtype else "uint64") ("valid_time" :: x.dims) x.values with
  | error e => intro h; cases h
  | ok f =>
    dsimp only
    split
    · intro h; cases h; rfl
    · intro h; cases h; rfl

/-- C238, extent: when another field `T` stands just before `valid_time`, the attributes of `valid_time` are set on the variable of `T`,
over those of the same name; everything else is as claimed. -/
theorem C238_before (q : ℚ) (init : String) (ds : XrDataset) (coord : String → DsCoord) (H : PlainDataset ds coord)
    (hv : "valid_time" ∉ ds.dims) (pre : List DsField) (T V : DsField) (post : List DsField) (hf : ds.fields = pre ++ T :: V :: post)
    (hV : V.name = "valid_time") :
    writeDataset (.ok (q, init)) true ds = .ok ⟨(ds.dims.map fun d => (d, (coord d).values.length)) ++ [("valid_time", 1)],
      ds.dims.map (coordVar coord) ++ [⟨"valid_time", "float64", ["valid_time"], [q], [("long_name", "valid_time"), ("units", "seconds since " ++ init)]⟩] ++
        (pre ++ { T with attrs := V.attrs.foldl setAttr T.attrs } :: post).map
          fun x => ⟨x.name, x.dtype, "valid_time" :: x.dims, x.values, x.attrs⟩,
      ds.attrs⟩ := by
  have hname : ∀ e, (coordVar coord e).name = e := by
    intro e; unfold coordVar; split <;> rfl
  rw [writeDataset_fields q init ds coord H hv]
  have hN := H.names
  rw [List.nodup_append] at hN
  have hF := hN.2.1
  have hD := hN.2.2
  have hmem : ∀ x ∈ pre ++ T :: V :: post, x ∈ ds.fields := fun x hx => hf ▸ hx
  rw [hf] at hF hD
  have hperm : (V.name :: ((pre ++ [T]).map DsField.name ++ post.map DsField.name)).Nodup := by
    refine (List.Perm.nodup_iff ?_).1 hF
    have : (pre ++ T :: V :: post).map DsField.name = (pre ++ [T]).map DsField.name ++ V.name :: post.map DsField.name := by simp
    rw [this]
    exact List.perm_middle
  rw [List.nodup_cons, hV] at hperm
  have hnv : ∀ x ∈ pre ++ [T] ++ post, x.name ≠ "valid_time" := by
    intro x hx h
    apply hperm.1
    rw [← List.map_append, ← h]
    exact List.mem_map_of_mem hx
  have hdV : ∀ x ∈ pre ++ [T] ++ post, x.name ∉ (ds.dims.map (coordVar coord) ++ [leadVar q init]).map NcVar.name := by
    intro x hx h
    rw [List.map_append, List.map_map, List.mem_append] at h
    rcases h with h | h
    · have he : (NcVar.name ∘ coordVar coord) = id := by funext e; exact hname e
      rw [he, List.map_id] at h
      refine hD _ h x.name (List.mem_map_of_mem ?_) rfl
      simp only [List.mem_append, List.mem_cons, List.not_mem_nil, or_false] at hx ⊢
      tauto
    · simp only [List.map_cons, List.map_nil, List.mem_singleton, leadVar] at h
      exact hnv x hx h
  have hVn : ((ds.dims.map (coordVar coord) ++ [leadVar q init]).map NcVar.name).Nodup := by
    have he : (NcVar.name ∘ coordVar coord) = id := by funext e; exact hname e
    rw [List.map_append, List.map_map, he, List.map_id]
    rw [List.nodup_append]
    refine ⟨hN.1, by simp, ?_⟩
    intro a ha b hb
    simp only [List.map_cons, List.map_nil, List.mem_singleton, leadVar] at hb
    subst hb
    rintro rfl
    exact hv ha
  have hfil : ∀ l : List DsField, (∀ x ∈ l, x.name ≠ "valid_time") → (l.filter fun x => !true || x.name != "valid_time") = l := by
    intro l hl
    rw [List.filter_eq_self]
    intro x hx
    simpa using hl x hx
  have hplain : ∀ x ∈ pre ++ T :: V :: post, x.dtype ∈ plainTypes ∧ (∀ q ∈ x.values, FitsType x.dtype q) ∧
      (∀ d ∈ x.dims, d ∈ ((ds.dims.map fun d => (d, (coord d).values.length)) ++ [("valid_time", 1)]).map Prod.fst) ∧ (x.attrs.map Prod.fst).Nodup :=
    fun x hx => ⟨H.field_type x (hmem x hx), H.field_values x (hmem x hx), by
      intro d hd
      rw [List.map_append]
      exact List.mem_append_left _ (by simpa [Function.comp_def] using H.field_dims x (hmem x hx) d hd), H.field_attrs x (hmem x hx)⟩
  have hsplit : ds.fields = (pre ++ [T]) ++ V :: post := by rw [hf]; simp
  generalize hDD : (ds.dims.map fun d => (d, (coord d).values.length)) ++ [("valid_time", 1)] = DD at hplain ⊢
  have hDt : "valid_time" ∈ DD.map Prod.fst := by rw [← hDD]; simp
  generalize hVV : ds.dims.map (coordVar coord) ++ [leadVar q init] = VV at hdV hVn ⊢
  rw [hsplit, List.foldlM_append]
  obtain ⟨w, hw⟩ := writeFields true DD (pre ++ [T]) VV none
    (by
      rw [hfil _ fun x hx => hnv x (by simp only [List.mem_append] at hx ⊢; tauto), List.nodup_append]
      refine ⟨hVn, (List.nodup_append.1 hperm.2).1, ?_⟩
      rintro a ha b hb rfl
      obtain ⟨x, hx, rfl⟩ := List.mem_map.1 hb
      exact hdV x (by simp only [List.mem_append] at hx ⊢; tauto) ha)
    (fun x hx => hplain x (by simp only [List.mem_append, List.mem_cons, List.not_mem_nil, or_false] at hx ⊢; tauto))
    (fun _ => ⟨hDt, fun x hx h => absurd h (hnv x (by simp only [List.mem_append] at hx ⊢; tauto))⟩)
  have hwT : w = some T.name := by
    have h := hw
    rw [List.foldlM_append] at h
    simp only [bind, Except.bind, List.foldlM_cons, List.foldlM_nil, pure, Except.pure] at h
    revert h
    cases pre.foldlM (writeField true) ((⟨DD, VV, []⟩ : NcFile), none) with
    | error e => intro h; cases h
    | ok s =>
      dsimp only
      cases hs : writeField true s T with
      | error e => intro h; cases h
      | ok s' =>
        intro h
        have := writeField_name T (hnv T (by simp)) s s' hs
        dsimp only at h
        injection h with h
        rw [h] at this
        exact this
  rw [hw, hfil _ fun x hx => hnv x (by simp only [List.mem_append] at hx ⊢; tauto), hwT]
  simp only [bind, Except.bind]
  rw [List.foldlM_cons]
  have eV : writeField true ((⟨DD, VV ++ (pre ++ [T]).map (fieldVar true), []⟩ : NcFile), some T.name) V =
      .ok (⟨DD, VV ++ pre.map (fieldVar true) ++ [fieldVar true { T with attrs := V.attrs.foldl setAttr T.attrs }], []⟩, some T.name) := by
    unfold writeField
    simp only [if_true, ne_eq, hV, not_true_eq_false, if_false, bind, Except.bind, pure, Except.pure]
    split
    · next h => rw [h]; simp
    · have hnew : (fieldVar true T).name ∉ (VV ++ pre.map (fieldVar true)).map NcVar.name := by
        rw [List.map_append, List.mem_append]
        rintro (h | h)
        · exact hdV T (by simp) h
        · rw [List.map_map] at h
          obtain ⟨x, hx, hxn⟩ := List.mem_map.1 h
          have h1 := (List.nodup_append.1 hperm.2).1
          rw [List.map_append, List.nodup_append] at h1
          exact h1.2.2 x.name (List.mem_map_of_mem hx) T.name (by simp) hxn
      have := setVarAttrs_final DD (VV ++ pre.map (fieldVar true)) [] (fieldVar true T) hnew V.attrs
      rw [show (fieldVar true T).name = T.name from rfl] at this
      rw [List.map_append, ← List.append_assoc]
      exact congrArg (fun f => Except.ok (f, some T.name)) this
  rw [eV]
  simp only [bind, Except.bind]
  obtain ⟨w', hw'⟩ := writeFields true DD post (VV ++ pre.map (fieldVar true) ++ [fieldVar true { T with attrs := V.attrs.foldl setAttr T.attrs }]) (some T.name)
    (by
      rw [hfil _ fun x hx => hnv x (by simp only [List.mem_append]; tauto)]
      have : (VV ++ pre.map (fieldVar true) ++ [fieldVar true { T with attrs := V.attrs.foldl setAttr T.attrs }]).map NcVar.name ++ post.map DsField.name =
          VV.map NcVar.name ++ ((pre ++ [T]).map DsField.name ++ post.map DsField.name) := by
        simp [fieldVar, Function.comp_def]
      rw [this, List.nodup_append]
      refine ⟨hVn, hperm.2, ?_⟩
      rintro a ha b hb rfl
      rw [← List.map_append] at hb
      obtain ⟨x, hx, rfl⟩ := List.mem_map.1 hb
      exact hdV x hx ha)
    (fun x hx => hplain x (by simp only [List.mem_append, List.mem_cons]; tauto))
    (fun _ => ⟨hDt, fun x hx h => absurd h (hnv x (by simp only [List.mem_append]; tauto))⟩)
  rw [hw', hfil _ fun x hx => hnv x (by simp only [List.mem_append]; tauto), ← hVV]
  simp only [Except.map]
  rw [setAttrs_fresh ds.attrs [] (by simpa using H.attrs)]
  simp only [List.nil_append, Except.ok.injEq, NcFile.mk.injEq, and_true, true_and, List.map_append, List.map_cons, List.append_assoc,
    List.cons_append, List.append_cancel_left_eq]
  rfl

theorem setAttr_same (l : List (String × String)) (a : String × String) (hl : (l.map Prod.fst).Nodup) (h : a ∈ l) : setAttr l a = l := by
  unfold setAttr
  rw [if_pos (List.mem_map_of_mem h)]
  conv_rhs => rw [← List.map_id l]
  refine List.map_congr_left fun b hb => ?_
  split
  · next e => exact List.inj_on_of_nodup_map hl h hb e.symm
  · rfl

theorem setAttr_mem (l : List (String × String)) (a : String × String) : a ∈ setAttr l a := by
  unfold setAttr
  split
  · next h =>
    obtain ⟨b, hb, e⟩ := List.mem_map.1 h
    exact List.mem_map.2 ⟨b, hb, if_pos e⟩
  · simp

theorem setAttr_keep (l : List (String × String)) (a b : String × String) (h : a ∈ l) (hab : a.1 ≠ b.1) : a ∈ setAttr l b := by
  unfold setAttr
  split
  · exact List.mem_map.2 ⟨a, h, if_neg hab⟩
  · simp [h]

theorem setAttrs_keep : ∀ (as l : List (String × String)) (a : String × String), a ∈ l → a.1 ∉ as.map Prod.fst → a ∈ as.foldl setAttr l
  | [], _, _, h, _ => h
  | b :: as, l, a, h, hn => by
    rw [List.map_cons, List.mem_cons, not_or] at hn
    exact setAttrs_keep as _ a (setAttr_keep l a b h hn.1) hn.2

theorem setAttrs_mem : ∀ (as l : List (String × String)), (as.map Prod.fst).Nodup → ∀ a ∈ as, a ∈ as.foldl setAttr l
  | [], _, _, _, h => by simp at h
  | b :: as, l, hn, a, h => by
    rw [List.map_cons, List.nodup_cons] at hn
    rcases List.mem_cons.1 h with rfl | h
    · exact setAttrs_keep as _ a (setAttr_mem l a) hn.1
    · exact setAttrs_mem as _ hn.2 a h

theorem setAttrs_same : ∀ (as l : List (String × String)), (l.map Prod.fst).Nodup → (∀ a ∈ as, a ∈ l) → as.foldl setAttr l = l
  | [], _, _, _ => rfl
  | b :: as, l, hl, h => by
    rw [List.foldl_cons, setAttr_same l b hl (h b (by simp))]
    exact setAttrs_same as l hl fun a ha => h a (by simp [ha])

/-- C238, exactly when it holds: the file is the one claimed if and only if the field `valid_time` is missing, or has no attributes, or
stands after a field which has all of its attributes already. -/
theorem C238_exactly_partial (q : ℚ) (init : String) (ds : XrDataset) (coord : String → DsCoord) (H : PlainDataset ds coord)
    (hv : "valid_time" ∉ ds.dims) :
    writeDataset (.ok (q, init)) true ds = .ok ⟨(ds.dims.map fun d => (d, (coord d).values.length)) ++ [("valid_time", 1)],
      ds.dims.map (coordVar coord) ++ [⟨"valid_time", "float64", ["valid_time"], [q], [("long_name", "valid_time"), ("units", "seconds since " ++ init)]⟩] ++
        (ds.fields.filter fun x => x.name != "valid_time").map fun x => ⟨x.name, x.dtype, "valid_time" :: x.dims, x.values, x.attrs⟩,
      ds.attrs⟩ ↔
    ∀ pre V post, ds.fields = pre ++ V :: post → V.name = "valid_time" → V.attrs ≠ [] →
      ∃ pre' T, pre = pre' ++ [T] ∧ ∀ a ∈ V.attrs, a ∈ T.attrs := by
  have hfil : ∀ pre V post, ds.fields = pre ++ V :: post → V.name = "valid_time" →
      (ds.fields.filter fun x => x.name != "valid_time") = pre ++ post := by
    intro pre V post hf hV
    have hF := (List.nodup_append.1 H.names).2.1
    have hperm : (V.name :: (pre.map DsField.name ++ post.map DsField.name)).Nodup := by
      refine (List.Perm.nodup_iff ?_).1 hF
      rw [hf, List.map_append, List.map_cons]
      exact List.perm_middle
    rw [List.nodup_cons, hV, ← List.map_append] at hperm
    have hnv : ∀ x ∈ pre ++ post, x.name ≠ "valid_time" := by
      intro x hx h
      exact hperm.1 (h ▸ List.mem_map_of_mem hx)
    rw [hf, List.filter_append, List.filter_cons_of_neg (by simp [hV]), ← List.filter_append, List.filter_eq_self]
    intro x hx
    simpa using hnv x hx
  constructor
  · intro h pre V post hf hV ha
    rcases List.eq_nil_or_concat pre with rfl | ⟨pre', T, rfl⟩
    · rw [C238_first q init ds coord H hv V post hf hV ha] at h
      cases h
    · refine ⟨pre', T, by simp, ?_⟩
      have hf' : ds.fields = pre' ++ T :: V :: post := by rw [hf]; simp
      rw [C238_before q init ds coord H hv pre' T V post hf' hV, hfil _ V post hf hV] at h
      simp only [Except.ok.injEq, NcFile.mk.injEq, and_true, true_and, List.concat_eq_append, List.append_assoc, List.map_append,
        List.append_cancel_left_eq, List.cons_append, List.nil_append, List.map_cons, List.cons.injEq, NcVar.mk.injEq] at h
      intro a hm
      rw [← h]
      exact setAttrs_mem V.attrs T.attrs (H.field_attrs V (by rw [hf]; simp)) a hm
  · intro h
    by_cases ha : ∀ x ∈ ds.fields, x.name = "valid_time" → x.attrs = []
    · exact C238_written_partial q init ds coord H hv ha
    · push Not at ha
      obtain ⟨V, hm, hV, hne⟩ := ha
      obtain ⟨pre, post, hf⟩ := List.append_of_mem hm
      obtain ⟨pre', T, rfl, hT⟩ := h pre V post hf hV hne
      have hf' : ds.fields = pre' ++ T :: V :: post := by rw [hf]; simp
      rw [C238_before q init ds coord H hv pre' T V post hf' hV, hfil _ V post hf hV,
        setAttrs_same V.attrs T.attrs (H.field_attrs T (by rw [hf']; simp)) hT]
      simp

/-- A Dataset of a temperature, with the valid time last; `units` of the two agree or not. -/
def timedDataset (u : String) : XrDataset := ⟨["lat"], fun d => if d = "lat" then some ⟨"float32", [10]⟩ else none,
  [⟨"T", "float32", ["lat"], [280], [("units", "K"), ("source", "model")]⟩, ⟨"valid_time", "int64", [], [0], [("units", u)]⟩], []⟩

theorem timedDataset_plain (u : String) : PlainDataset (timedDataset u) fun d => ((timedDataset u).coords d).getD ⟨"", []⟩ where
  names := by show (["lat", "T", "valid_time"] : List String).Nodup; decide +kernel
  coords := by
    intro d hd
    simp only [timedDataset, List.mem_cons, List.not_mem_nil, or_false] at hd
    subst hd
    rfl
  number := by
    intro d hd hne q _
    simp only [timedDataset, List.mem_cons, List.not_mem_nil, or_false] at hd
    subst hd
    exact Or.inl rfl
  number_type := by
    intro d hd hne
    simp only [timedDataset, List.mem_cons, List.not_mem_nil, or_false] at hd
    subst hd
    simp [timedDataset]
  date := by intro h; simp [timedDataset] at h
  field_type := by
    intro x hx
    simp only [timedDataset, List.mem_cons, List.not_mem_nil, or_false] at hx
    rcases hx with rfl | rfl <;> simp
  field_values := by
    intro x hx q hq
    simp only [timedDataset, List.mem_cons, List.not_mem_nil, or_false] at hx
    rcases hx with rfl | rfl
    · exact Or.inl rfl
    · simp only [List.mem_cons, List.not_mem_nil, or_false] at hq
      subst hq
      exact Or.inr (Or.inr ⟨0, by simp, by norm_num⟩)
  field_dims := by
    intro x hx d hd
    simp only [timedDataset, List.mem_cons, List.not_mem_nil, or_false] at hx
    rcases hx with rfl | rfl
    · simpa [timedDataset] using hd
    · simp at hd
  field_attrs := by
    intro x hx
    simp only [timedDataset, List.mem_cons, List.not_mem_nil, or_false] at hx
    rcases hx with rfl | rfl <;> simp
  attrs := by simp [timedDataset]

/-- The temperature gets the units of the valid time. -/
example : writeDataset (.ok (3600, "2020-01-01 00:00:00")) true (timedDataset "hours") =
    .ok ⟨[("lat", 1), ("valid_time", 1)], [⟨"lat", "float32", ["lat"], [10], []⟩, ⟨"valid_time", "float64", ["valid_time"], [3600],
        [("long_name", "valid_time"), ("units", "seconds since 2020-01-01 00:00:00")]⟩,
      ⟨"T", "float32", ["valid_time", "lat"], [280], [("units", "hours"), ("source", "model")]⟩], []⟩ := by
  rw [C238_before 3600 _ _ _ (timedDataset_plain "hours") (by decide +kernel) [] _ _ [] rfl rfl]
  decide +kernel

end Props
end Metcalcpy
