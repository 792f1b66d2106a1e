/-
C236  What write_dataset writes.
C237  Times in the file of write_dataset.
C238  write_dataset with a dimension for the valid time.
-/
import Verif.Model.WriteDataset
import Mathlib.Tactic.Linarith
import Mathlib.Tactic.NormNum
import Mathlib.Tactic.Ring
import Mathlib.Algebra.Order.Floor.Ring
import Mathlib.Data.Rat.Floor

namespace Metcalcpy

namespace Spec

/-- Numbers a type can hold. -/
def FitsType (dtype : String) (q : ℚ) : Prop :=
  dtype = "float32" ∨ dtype = "float64" ∨ ∃ z : ℤ, q = z ∧
    ((dtype = "uint32" ∧ 0 ≤ z ∧ z < 2 ^ 32) ∨ (dtype = "uint64" ∧ 0 ≤ z ∧ z < 2 ^ 64) ∨
     (dtype = "int32" ∧ -2 ^ 31 ≤ z ∧ z < 2 ^ 31) ∨ (dtype = "int64" ∧ -2 ^ 63 ≤ z ∧ z < 2 ^ 63))

/-- A Dataset with distinct names, a coordinate for every dimension, and numbers of one of the six types written as they are; the
coordinate `time`, if there is one, has a type of dates. -/
structure PlainDataset (ds : XrDataset) (coord : String → DsCoord) : Prop where
  names : (ds.dims ++ ds.fields.map DsField.name).Nodup
  coords : ∀ d ∈ ds.dims, ds.coords d = some (coord d)
  number : ∀ d ∈ ds.dims, d ≠ "time" → ∀ q ∈ (coord d).values, FitsType (coord d).dtype q
  number_type : ∀ d ∈ ds.dims, d ≠ "time" → (coord d).dtype ∈ ["uint32", "uint64", "int32", "int64", "float32", "float64"]
  date : "time" ∈ ds.dims → (coord "time").dtype = "datetime64[ns]"
  field_type : ∀ x ∈ ds.fields, x.dtype ∈ ["uint32", "uint64", "int32", "int64", "float32", "float64"]
  field_values : ∀ x ∈ ds.fields, ∀ q ∈ x.values, FitsType x.dtype q
  field_dims : ∀ x ∈ ds.fields, ∀ d ∈ x.dims, d ∈ ds.dims
  field_attrs : ∀ x ∈ ds.fields, (x.attrs.map Prod.fst).Nodup
  attrs : (ds.attrs.map Prod.fst).Nodup

/-- The variable of a coordinate: numbers as they are, times in seconds since the first. -/
def coordVar (coord : String → DsCoord) (d : String) : NcVar :=
  if d = "time" then ⟨d, "float64", [d], (coord d).values.map fun t => (t - (coord d).values.headD 0) / 1000000000, []⟩
  else ⟨d, (coord d).dtype, [d], (coord d).values, []⟩

end Spec

namespace Props
open Metcalcpy Spec

theorem storedAs_fits (dtype : String) (q : ℚ) (h : FitsType dtype q) : storedAs dtype q = q := by
  have key : ∀ z : ℤ, (if (z : ℚ) < 0 then ⌈(z : ℚ)⌉ else ⌊(z : ℚ)⌋) = z := by
    intro z
    split <;> simp
  rcases h with rfl | rfl | ⟨z, rfl, ⟨rfl, h1, h2⟩ | ⟨rfl, h1, h2⟩ | ⟨rfl, h1, h2⟩ | ⟨rfl, h1, h2⟩⟩
  · rfl
  · rfl
  · simp only [storedAs, wholeType, key, Bool.false_and, Bool.false_eq_true, if_false]
    rw [Int.emod_eq_of_lt h1 h2]
  · simp only [storedAs, wholeType, key, Bool.false_and, Bool.false_eq_true, if_false]
    rw [Int.emod_eq_of_lt h1 h2]
  · simp only [storedAs, wholeType, key, Bool.true_and, decide_eq_true_eq]
    split
    · next h => rw [Int.cast_inj]; norm_num at *; omega
    · next h => rw [Int.cast_inj]; norm_num at *; omega
  · simp only [storedAs, wholeType, key, Bool.true_and, decide_eq_true_eq]
    split
    · next h => rw [Int.cast_inj]; norm_num at *; omega
    · next h => rw [Int.cast_inj]; norm_num at *; omega

theorem storedAs_map (dtype : String) (l : List ℚ) (h : ∀ q ∈ l, FitsType dtype q) : l.map (storedAs dtype) = l := by
  conv_rhs => rw [← List.map_id l]
  exact List.map_congr_left fun q hq => storedAs_fits dtype q (h q hq)

theorem setAttr_fresh (l : List (String × String)) (a : String × String) (h : a.1 ∉ l.map Prod.fst) : setAttr l a = l ++ [a] := by
  unfold setAttr
  rw [if_neg h]

theorem setAttrs_fresh : ∀ (as l : List (String × String)), ((l ++ as).map Prod.fst).Nodup → as.foldl setAttr l = l ++ as
  | [], l, _ => by simp
  | a :: as, l, h => by
    rw [List.foldl_cons, setAttr_fresh, setAttrs_fresh as (l ++ [a])]
    · simp
    · simpa using h
    · rw [List.map_append, List.map_cons, List.nodup_append] at h
      intro hm
      exact h.2.2 _ hm _ (by simp) rfl

theorem createVariable_ok (f : NcFile) (name dtype : String) (dims : List String) (values : List ℚ) (h1 : name ∉ f.vars.map NcVar.name)
    (h2 : ∀ d ∈ dims, d ∈ f.dims.map Prod.fst) (h3 : ∀ q ∈ values, FitsType dtype q) :
    f.createVariable name dtype dims values = .ok { f with vars := f.vars ++ [⟨name, dtype, dims, values, []⟩] } := by
  unfold NcFile.createVariable
  rw [if_neg h1, if_pos (by simpa using h2), storedAs_map _ _ h3]

theorem setVarAttrs_last (D : List (String × ℕ)) (V : List NcVar) (A : List (String × String)) (v : NcVar) (h : v.name ∉ V.map NcVar.name)
    (hv : v.attrs = []) (as : List (String × String)) (ha : (as.map Prod.fst).Nodup) :
    (NcFile.mk D (V ++ [v]) A).setVarAttrs v.name as = ⟨D, V ++ [{ v with attrs := as }], A⟩ := by
  unfold NcFile.setVarAttrs
  congr 1
  rw [List.map_append]
  congr 1
  · conv_rhs => rw [← List.map_id V]
    refine List.map_congr_left fun w hw => ?_
    rw [if_neg]
    · rfl
    · intro e
      exact h (e ▸ List.mem_map.2 ⟨w, hw, rfl⟩)
  · simp only [List.map_cons, List.map_nil, if_true]
    rw [hv, setAttrs_fresh as [] (by simpa using ha), List.nil_append]

theorem writeDims (ds : XrDataset) (coord : String → DsCoord) (H : PlainDataset ds coord) : ∀ todo done : List String,
    (done ++ todo).Nodup → (∀ d ∈ todo, d ∈ ds.dims) →
    todo.foldlM (writeDim ds) ⟨done.map fun d => (d, (coord d).values.length), done.map (coordVar coord), []⟩ =
      .ok ⟨(done ++ todo).map fun d => (d, (coord d).values.length), (done ++ todo).map (coordVar coord), []⟩
  | [], done, _, _ => by rw [List.append_nil]; rfl
  | d :: todo, done, hn, hm => by
    have hname : ∀ e, (coordVar coord e).name = e := by
      intro e; unfold coordVar; split <;> rfl
    have hd : d ∉ done := by
      rw [List.nodup_append] at hn
      exact fun h => hn.2.2 _ h _ (by simp) rfl
    rw [List.foldlM_cons]
    have e : writeDim ds ⟨done.map fun d => (d, (coord d).values.length), done.map (coordVar coord), []⟩ d =
        .ok ⟨(done ++ [d]).map fun d => (d, (coord d).values.length), (done ++ [d]).map (coordVar coord), []⟩ := by
      unfold writeDim
      rw [H.coords d (hm d (by simp))]
      dsimp only
      unfold NcFile.createDimension
      rw [if_neg (by simpa [Function.comp_def] using hd)]
      show NcFile.createVariable _ _ _ _ _ = _
      by_cases ht : d = "time"
      · subst ht
        have hty := H.date (hm _ (by simp))
        rw [if_neg (by rw [hty]; decide)]
        rw [createVariable_ok]
        · simp [coordVar, coordValues]
        · simpa [Function.comp_def, hname] using hd
        · simp
        · intro q _
          exact Or.inr (Or.inl rfl)
      · rw [if_pos (show (coord d).dtype ∈ plainTypes from H.number_type d (hm d (by simp)) ht)]
        have hcv : coordValues d (coord d).values = (coord d).values := by unfold coordValues; rw [if_neg ht]
        rw [hcv, createVariable_ok]
        · simp [coordVar, ht]
        · simpa [Function.comp_def, hname] using hd
        · simp
        · exact H.number d (hm d (by simp)) ht
    rw [e]
    show List.foldlM _ _ todo = _
    rw [writeDims ds coord H todo (done ++ [d]) (by simpa using hn) fun x hx => hm x (by simp [hx])]
    simp

/-- The variable of a field; `time` says whether there is a dimension for the valid time. -/
def fieldVar (time : Bool) (x : DsField) : NcVar := ⟨x.name, x.dtype, (if time then ["valid_time"] else []) ++ x.dims, x.values, x.attrs⟩

theorem writeFields (time : Bool) (D : List (String × ℕ)) : ∀ (xs : List DsField) (V : List NcVar) (v : Option String),
    (V.map NcVar.name ++ (xs.filter fun x => !time || x.name != "valid_time").map DsField.name).Nodup →
    (∀ x ∈ xs, x.dtype ∈ plainTypes ∧ (∀ q ∈ x.values, FitsType x.dtype q) ∧ (∀ d ∈ x.dims, d ∈ D.map Prod.fst) ∧ (x.attrs.map Prod.fst).Nodup) →
    (time = true → "valid_time" ∈ D.map Prod.fst ∧ ∀ x ∈ xs, x.name = "valid_time" → x.attrs = []) →
    ∃ w, xs.foldlM (writeField time) (⟨D, V, []⟩, v) =
      .ok (⟨D, V ++ (xs.filter fun x => !time || x.name != "valid_time").map (fieldVar time), []⟩, w)
  | [], V, v, _, _, _ => ⟨v, by simp; rfl⟩
  | x :: xs, V, v, hn, hx, ht => by
    obtain ⟨h1, h2, h3, h4⟩ := hx x (by simp)
    rw [List.foldlM_cons]
    by_cases hs : time = true ∧ x.name = "valid_time"
    · have e : writeField time (⟨D, V, []⟩, v) x = .ok (⟨D, V, []⟩, v) := by
        unfold writeField
        simp only [hs.1, hs.2, if_true, ne_eq, not_true_eq_false, if_false]
        simp only [bind, Except.bind, pure, Except.pure]
        rw [if_pos ((ht hs.1).2 x (by simp) hs.2)]
      rw [e]
      have hf : ((x :: xs).filter fun x => !time || x.name != "valid_time") = xs.filter fun x => !time || x.name != "valid_time" := by
        rw [List.filter_cons_of_neg]
        simp [hs.1, hs.2]
      rw [hf] at hn ⊢
      exact writeFields time D xs V v hn (fun y hy => hx y (by simp [hy])) fun h => ⟨(ht h).1, fun y hy => (ht h).2 y (by simp [hy])⟩
    · have hf : ((x :: xs).filter fun x => !time || x.name != "valid_time") = x :: xs.filter fun x => !time || x.name != "valid_time" := by
        rw [List.filter_cons_of_pos]
        by_contra hc
        apply hs
        simpa using hc
      rw [hf, List.map_cons] at hn
      have hnew : x.name ∉ V.map NcVar.name := by
        rw [List.nodup_append] at hn
        exact fun h => hn.2.2 _ h _ (by simp) rfl
      have e : writeField time (⟨D, V, []⟩, v) x = .ok (⟨D, V ++ [fieldVar time x], []⟩, some x.name) := by
        unfold writeField
        rw [if_pos h1]
        have ec : ∀ dims : List String, (∀ d ∈ dims, d ∈ D.map Prod.fst) →
            NcFile.createVariable ⟨D, V, []⟩ x.name x.dtype dims x.values = .ok ⟨D, V ++ [⟨x.name, x.dtype, dims, x.values, []⟩], []⟩ :=
          fun dims hd => createVariable_ok _ _ _ _ _ hnew hd h2
        have fin : ∀ dims, (if x.attrs = [] then (Except.ok (⟨D, V ++ [⟨x.name, x.dtype, dims, x.values, []⟩], []⟩, some x.name) : Except NcErr (NcFile × Option String))
            else .ok (NcFile.setVarAttrs ⟨D, V ++ [⟨x.name, x.dtype, dims, x.values, []⟩], []⟩ x.name x.attrs, some x.name)) =
            .ok (⟨D, V ++ [⟨x.name, x.dtype, dims, x.values, x.attrs⟩], []⟩, some x.name) := by
          intro dims
          split
          · next h => rw [h]
          · have := setVarAttrs_last D V [] ⟨x.name, x.dtype, dims, x.values, []⟩ hnew rfl x.attrs h4
            dsimp only at this
            rw [this]
        cases time with
        | true =>
          have hne : x.name ≠ "valid_time" := fun h => hs ⟨rfl, h⟩
          simp only [if_true, ne_eq, hne, not_false_eq_true]
          rw [ec _ (by simpa using ⟨by simpa using (ht rfl).1, by simpa using h3⟩)]
          simp only [bind, Except.bind, pure, Except.pure]
          exact fin _
        | false =>
          simp only [Bool.false_eq_true, if_false]
          rw [ec _ h3]
          simp only [bind, Except.bind, pure, Except.pure]
          exact fin _
      rw [e]
      obtain ⟨w, hw⟩ := writeFields time D xs (V ++ [fieldVar time x]) (some x.name)
        (by rw [List.map_append]; simpa [fieldVar] using hn) (fun y hy => hx y (by simp [hy]))
        fun h => ⟨(ht h).1, fun y hy => (ht h).2 y (by simp [hy])⟩
      refine ⟨w, ?_⟩
      show List.foldlM _ _ xs = _
      rw [hw, hf]
      simp

/-- C236 (what holds): the file has the dimensions of the Dataset with the sizes of their coordinates, a variable for every coordinate
and after them one for every field, in order, with the type, dimensions, values and attributes of the field, and the attributes of the
Dataset. -/
theorem C236_written_partial (lead : Except PyErr (ℚ × String)) (ds : XrDataset) (coord : String → DsCoord) (H : PlainDataset ds coord) :
    writeDataset lead false ds = .ok ⟨ds.dims.map fun d => (d, (coord d).values.length),
      ds.dims.map (coordVar coord) ++ ds.fields.map fun x => ⟨x.name, x.dtype, x.dims, x.values, x.attrs⟩, ds.attrs⟩ := by
  have hname : ∀ e, (coordVar coord e).name = e := by
    intro e; unfold coordVar; split <;> rfl
  unfold writeDataset
  have e1 := writeDims ds coord H ds.dims [] (by simpa using (List.nodup_append.1 H.names).1) fun _ h => h
  simp only [List.map_nil, List.nil_append] at e1
  rw [NcFile.empty, e1]
  simp only [bind, Except.bind, pure, Except.pure, Bool.false_eq_true, if_false]
  have hfil : (ds.fields.filter fun x => !false || x.name != "valid_time") = ds.fields := by simp
  obtain ⟨w, hw⟩ := writeFields false (ds.dims.map fun d => (d, (coord d).values.length)) ds.fields (ds.dims.map (coordVar coord)) none
    (by rw [hfil]; simpa [Function.comp_def, hname] using H.names)
    (fun x hx => ⟨H.field_type x hx, H.field_values x hx, by simpa [Function.comp_def] using H.field_dims x hx, H.field_attrs x hx⟩)
    (fun h => by cases h)
  rw [hw, hfil]
  dsimp only
  rw [setAttrs_fresh _ _ (by simpa using H.attrs)]
  rfl

/-- C238 (what holds): with a dimension for the valid time, the file has this dimension of size one and a variable with the seconds
since the initial time, which its units name, and every field but `valid_time` with the dimension in front of its own; provided that the field
`valid_time` has no attributes. -/
theorem C238_written_partial (q : ℚ) (init : String) (ds : XrDataset) (coord : String → DsCoord) (H : PlainDataset ds coord) (hv : "valid_time" ∉ ds.dims)
    (ha : ∀ x ∈ ds.fields, x.name = "valid_time" → x.attrs = []) :
    writeDataset (.ok (q, init)) true ds = .ok ⟨(ds.dims.map fun d => (d, (coord d).values.length)) ++ [("valid_time", 1)],
      ds.dims.map (coordVar coord) ++ [⟨"valid_time", "float64", ["valid_time"], [q], [("long_name", "valid_time"), ("units", "seconds since " ++ init)]⟩] ++
        (ds.fields.filter fun x => x.name != "valid_time").map fun x => ⟨x.name, x.dtype, "valid_time" :: x.dims, x.values, x.attrs⟩,
      ds.attrs⟩ := by
  have hname : ∀ e, (coordVar coord e).name = e := by
    intro e; unfold coordVar; split <;> rfl
  unfold writeDataset
  have e1 := writeDims ds coord H ds.dims [] (by simpa using (List.nodup_append.1 H.names).1) fun _ h => h
  simp only [List.map_nil, List.nil_append] at e1
  rw [NcFile.empty, e1]
  simp only [bind, Except.bind, pure, Except.pure, if_true]
  have e2 : writeValidTime (.ok (q, init)) ⟨ds.dims.map fun d => (d, (coord d).values.length), ds.dims.map (coordVar coord), []⟩ =
      .ok ⟨(ds.dims.map fun d => (d, (coord d).values.length)) ++ [("valid_time", 1)],
        ds.dims.map (coordVar coord) ++ [⟨"valid_time", "float64", ["valid_time"], [q], [("long_name", "valid_time"), ("units", "seconds since " ++ init)]⟩], []⟩ := by
    unfold writeValidTime NcFile.createDimension
    rw [if_neg (by simpa [Function.comp_def] using hv)]
    simp only [bind, Except.bind]
    rw [createVariable_ok]
    · dsimp only [pure, Except.pure]
      have := setVarAttrs_last ((ds.dims.map fun d => (d, (coord d).values.length)) ++ [("valid_time", 1)]) (ds.dims.map (coordVar coord)) []
        ⟨"valid_time", "float64", ["valid_time"], [q], []⟩ (by simpa [Function.comp_def, hname] using hv) rfl
        [("long_name", "valid_time"), ("units", "seconds since " ++ init)] (by simp)
      dsimp only at this
      rw [this]
    · simpa [Function.comp_def, hname] using hv
    · simp
    · intro p _
      exact Or.inr (Or.inl rfl)
  rw [e2]
  dsimp only
  have hfil : (ds.fields.filter fun x => !true || x.name != "valid_time") = ds.fields.filter fun x => x.name != "valid_time" := by simp
  obtain ⟨w, hw⟩ := writeFields true ((ds.dims.map fun d => (d, (coord d).values.length)) ++ [("valid_time", 1)]) ds.fields
    (ds.dims.map (coordVar coord) ++ [⟨"valid_time", "float64", ["valid_time"], [q], [("long_name", "valid_time"), ("units", "seconds since " ++ init)]⟩]) none
    (by
      rw [hfil]
      have hN := H.names
      rw [List.nodup_append] at hN
      rw [List.map_append, List.map_map]
      have : (NcVar.name ∘ coordVar coord) = id := by funext e; exact hname e
      rw [this, List.map_id, List.map_cons, List.map_nil, List.append_assoc, List.nodup_append]
      refine ⟨hN.1, ?_, ?_⟩
      · rw [List.singleton_append, List.nodup_cons]
        refine ⟨?_, (List.filter_sublist.map _).nodup hN.2.1⟩
        intro hm
        obtain ⟨x, hx, hxn⟩ := List.mem_map.1 hm
        have := (List.mem_filter.1 hx).2
        simp [hxn] at this
      · intro a ha b hb
        rw [List.singleton_append, List.mem_cons] at hb
        rcases hb with rfl | hb
        · rintro rfl; exact hv ha
        · exact hN.2.2 a ha b ((List.filter_sublist.map _).subset hb))
    (fun x hx => ⟨H.field_type x hx, H.field_values x hx, by
      intro d hd
      rw [List.map_append]
      exact List.mem_append_left _ (by simpa [Function.comp_def] using H.field_dims x hx d hd), H.field_attrs x hx⟩)
    (fun _ => ⟨by simp, ha⟩)
  rw [hw, hfil]
  dsimp only
  rw [setAttrs_fresh _ _ (by simpa using H.attrs)]
  rfl

/-- A Dataset of a temperature on two times and one latitude. -/
def smallDataset : XrDataset := ⟨["time", "lat"],
  fun d => if d = "time" then some ⟨"datetime64[ns]", [1000000000, 3000000000]⟩ else if d = "lat" then some ⟨"float32", [10]⟩ else none,
  [⟨"T", "float32", ["time", "lat"], [280, 281], [("units", "K")]⟩], [("title", "test")]⟩

theorem smallDataset_plain : PlainDataset smallDataset fun d => (smallDataset.coords d).getD ⟨"", []⟩ where
  names := by decide +kernel
  coords := by
    intro d hd
    simp only [smallDataset, List.mem_cons, List.not_mem_nil, or_false] at hd
    rcases hd with rfl | rfl <;> decide +kernel
  number := by
    intro d hd hne q _
    simp only [smallDataset, List.mem_cons, List.not_mem_nil, or_false] at hd
    rcases hd with rfl | rfl
    · exact absurd rfl hne
    · exact Or.inl (by decide +kernel)
  number_type := by
    intro d hd hne
    simp only [smallDataset, List.mem_cons, List.not_mem_nil, or_false] at hd
    rcases hd with rfl | rfl
    · exact absurd rfl hne
    · decide +kernel
  date := fun _ => by decide +kernel
  field_type := by decide +kernel
  field_values := by
    intro x hx q _
    simp only [smallDataset, List.mem_cons, List.not_mem_nil, or_false] at hx
    subst hx
    exact Or.inl rfl
  field_dims := by decide +kernel
  field_attrs := by decide +kernel
  attrs := by decide +kernel

/-- C236, failure: a field of short whole numbers is written as unsigned numbers: -1 becomes 2⁶⁴ - 1; a half of a short float becomes 0. -/
theorem C236_types_counterexample :
    writeDataset (.ok (0, "2020-01-01 00:00:00")) false ⟨["lat"], fun _ => some ⟨"float64", [10]⟩,
      [⟨"a", "int16", ["lat"], [-1], []⟩, ⟨"b", "float16", ["lat"], [1 / 2], []⟩], []⟩ =
    .ok ⟨[("lat", 1)], [⟨"lat", "float64", ["lat"], [10], []⟩, ⟨"a", "uint64", ["lat"], [2 ^ 64 - 1], []⟩, ⟨"b", "uint64", ["lat"], [0], []⟩], []⟩ := by
  decide +kernel

/-- The Dataset with all times shifted by `s` nanoseconds. -/
def shiftTimes (s : ℚ) (ds : XrDataset) : XrDataset :=
  { ds with coords := fun d => if d = "time" then (ds.coords d).map fun c => { c with values := c.values.map (· + s) } else ds.coords d }

/-- C237, extent: the file does not depend on when the times begin: shifting all times of any Dataset changes nothing in it. -/
theorem C237_shift (lead : Except PyErr (ℚ × String)) (time : Bool) (ds : XrDataset) (s : ℚ) :
    writeDataset lead time (shiftTimes s ds) = writeDataset lead time ds := by
  have e : writeDim (shiftTimes s ds) = writeDim ds := by
    funext f d
    unfold writeDim shiftTimes
    dsimp only
    by_cases ht : d = "time"
    · subst ht
      rw [if_pos rfl]
      cases ds.coords "time" with
      | none => rfl
      | some c =>
        simp only [Option.map_some, List.length_map]
        congr 1
        funext f'
        congr 1
        unfold coordValues
        rw [if_pos rfl, if_pos rfl, List.map_map]
        cases c.values with
        | nil => rfl
        | cons a l =>
          refine List.map_congr_left fun t _ => ?_
          simp only [Function.comp, List.map_cons, List.headD_cons]
          congr 1
          ring
    · rw [if_neg ht]
  unfold writeDataset
  rw [e]
  rfl

/-- C237, failure: two Datasets a day apart have the same file. -/
theorem C237_shift_counterexample : ∃ ds ds' f, (ds.coords "time").map DsCoord.values ≠ (ds'.coords "time").map DsCoord.values ∧
    writeDataset (.ok (0, "2020-01-01 00:00:00")) false ds = .ok f ∧ writeDataset (.ok (0, "2020-01-01 00:00:00")) false ds' = .ok f := by
  refine ⟨smallDataset, shiftTimes 86400000000000 smallDataset, _, by decide +kernel, rfl, ?_⟩
  rw [C237_shift]
  rfl

/-- C237 (what holds): the differences of the times in the file are those of the Dataset in seconds, and the first is zero. -/
theorem C237_intervals_partial (lead : Except PyErr (ℚ × String)) (ds : XrDataset) (coord : String → DsCoord) (H : PlainDataset ds coord)
    (ht : "time" ∈ ds.dims) : ∃ f v, writeDataset lead false ds = .ok f ∧ v ∈ f.vars ∧ v.name = "time" ∧
      v.values.length = (coord "time").values.length ∧
      ∀ i j : ℕ, i < v.values.length → j < v.values.length →
        v.values.getD i 0 - v.values.getD j 0 = ((coord "time").values.getD i 0 - (coord "time").values.getD j 0) / 1000000000 := by
  refine ⟨_, coordVar coord "time", C236_written_partial lead ds coord H, ?_, rfl, ?_, ?_⟩
  · exact List.mem_append_left _ (List.mem_map.2 ⟨_, ht, rfl⟩)
  · simp [coordVar]
  · intro i j hi hj
    simp only [coordVar, if_true, List.length_map] at hi hj ⊢
    simp only [List.getD_eq_getElem?_getD, List.getElem?_map, List.getElem?_eq_getElem hi, List.getElem?_eq_getElem hj, Option.map_some, Option.getD_some]
    ring

/-- C238, failure: the attributes of the field `valid_time` go to the variable written before it, and replace attributes of that; when
it is the first field, the writing ends with an UnboundLocalError. -/
theorem C238_attributes_counterexample :
    let lat : String → Option DsCoord := fun _ => some ⟨"float64", [10]⟩
    let T : DsField := ⟨"T", "float64", ["lat"], [280], [("units", "K")]⟩
    let V : DsField := ⟨"valid_time", "int64", [], [0], [("units", "hours")]⟩
    writeDataset (.ok (3600, "2020-01-01 00:00:00")) true ⟨["lat"], lat, [T, V], []⟩ =
      .ok ⟨[("lat", 1), ("valid_time", 1)], [⟨"lat", "float64", ["lat"], [10], []⟩, ⟨"valid_time", "float64", ["valid_time"], [3600],
          [("long_name", "valid_time"), ("units", "seconds since 2020-01-01 00:00:00")]⟩,
        ⟨"T", "float64", ["valid_time", "lat"], [280], [("units", "hours")]⟩], []⟩ ∧
    writeDataset (.ok (3600, "2020-01-01 00:00:00")) true ⟨["lat"], lat, [V, T], []⟩ = .error (.python .unboundLocalError) := by
  decide +kernel

end Props
end Metcalcpy
