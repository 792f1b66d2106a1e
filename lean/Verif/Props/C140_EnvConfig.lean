/-
C140  References to environment variables in a configuration are replaced by their values.
-/
import Verif.Model.EnvConfig

namespace Metcalcpy.Props
open Metcalcpy

/-- A part of a configuration value: plain text or a reference `${name}`. -/
inductive Piece
  | lit (t : List Char)
  | ref (g : List Char)

namespace Piece

/-- How the part is written. -/
def text : Piece → List Char
  | lit t => t
  | ref g => '$' :: '{' :: (g ++ ['}'])

/-- What it stands for: an undefined variable stands for its own name. -/
def value (env : List Char → Option (List Char)) : Piece → List Char
  | lit t => t
  | ref g => (env g).getD g

/-- Plain text without `$`; names of letters, digits and underscores. -/
def Ok : Piece → Prop
  | lit t => '$' ∉ t
  | ref g => g ≠ [] ∧ ∀ c ∈ g, c.isAlphanum ∨ c = '_'

/-- The name of a reference. -/
def name? : Piece → Option (List Char)
  | lit _ => none
  | ref g => some g

/-- The part with the variables of `L` replaced. -/
def subst (val : List Char → List Char) (L : List (List Char)) : Piece → Piece
  | lit t => lit t
  | ref h => if h ∈ L then lit (val h) else ref h

end Piece

theorem isWordChar_iff (c : Char) : isWordChar c = true ↔ (c.isAlphanum ∨ c = '_') := by
  unfold isWordChar; simp

theorem word_ne_brace {c : Char} (h : c.isAlphanum ∨ c = '_') : c ≠ '}' ∧ c ≠ '$' := by
  constructor
  · rintro rfl; revert h; decide
  · rintro rfl; revert h; decide

theorem findRefs_lit (t s : List Char) (ht : '$' ∉ t) : ∀ fuel, (t ++ s).length ≤ fuel →
    findRefs fuel (t ++ s) = findRefs (fuel - t.length) s := by
  induction t with
  | nil => intro fuel _; rfl
  | cons c t ih =>
    intro fuel hf
    rw [List.mem_cons, not_or] at ht
    obtain ⟨f, rfl⟩ : ∃ f, fuel = f + 1 := ⟨fuel - 1, by simp at hf; omega⟩
    rw [List.cons_append, findRefs, if_neg (fun h => ht.1 h.1.symm), ih ht.2 f (by simp at hf ⊢; omega)]
    congr 1
    simp

theorem findRefs_pieces (ps : List Piece) (h : ∀ p ∈ ps, p.Ok) : ∀ fuel, (ps.flatMap Piece.text).length ≤ fuel →
    findRefs fuel (ps.flatMap Piece.text) = ps.filterMap Piece.name? := by
  induction ps with
  | nil => intro fuel _; cases fuel <;> rfl
  | cons p ps ih =>
    intro fuel hf
    have hp := h p (by simp)
    have hps := ih (fun q hq => h q (by simp [hq]))
    rw [List.flatMap_cons] at hf ⊢
    cases p with
    | lit t =>
      rw [Piece.text, findRefs_lit t _ hp fuel hf, hps _ (by simp [Piece.text] at hf ⊢; omega)]
      rfl
    | ref g =>
      obtain ⟨hne, hw⟩ := hp
      obtain ⟨f, rfl⟩ : ∃ f, fuel = f + 1 := ⟨fuel - 1, by simp [Piece.text] at hf; omega⟩
      simp only [Piece.text, List.cons_append, List.append_assoc, List.nil_append] at hf ⊢
      have hw' : ∀ c ∈ g, isWordChar c = true := fun c hc => (isWordChar_iff c).mpr (hw c hc)
      have ht : (g ++ '}' :: ps.flatMap Piece.text).takeWhile isWordChar = g := by
        rw [List.takeWhile_append_of_pos hw', List.takeWhile_cons_of_neg (by decide), List.append_nil]
      have hd : (g ++ '}' :: ps.flatMap Piece.text).dropWhile isWordChar = '}' :: ps.flatMap Piece.text := by
        rw [List.dropWhile_append_of_pos hw', List.dropWhile_cons_of_neg (by decide)]
      rw [findRefs, if_pos ⟨rfl, rfl⟩]
      simp only [List.tail_cons, ht, hd, List.head?_cons]
      rw [if_pos ⟨hne, trivial⟩, hps f (by simp only [List.length_cons, List.length_append] at hf; omega)]
      rfl

theorem replaceAll_lit (g v t s : List Char) (ht : '$' ∉ t) : ∀ fuel, (t ++ s).length ≤ fuel →
    replaceAll (refText g) v fuel (t ++ s) = t ++ replaceAll (refText g) v (fuel - t.length) s := by
  induction t with
  | nil => intro fuel _; rfl
  | cons c t ih =>
    intro fuel hf
    rw [List.mem_cons, not_or] at ht
    obtain ⟨f, rfl⟩ : ∃ f, fuel = f + 1 := ⟨fuel - 1, by simp at hf; omega⟩
    have hn : ¬ (refText g).isPrefixOf (c :: (t ++ s)) = true := by
      simp [refText, List.isPrefixOf, ht.1]
    rw [List.cons_append, replaceAll, if_neg hn, ih ht.2 f (by simp at hf ⊢; omega)]
    simp

theorem word_prefix : ∀ (g h r : List Char), (∀ c ∈ g, c ≠ '}') → (∀ c ∈ h, c ≠ '}') → g ++ ['}'] <+: h ++ '}' :: r → g = h
  | [], [], _, _, _, _ => rfl
  | [], b :: h, r, _, hh, hp => by
    rw [List.nil_append, List.cons_append, List.cons_prefix_cons] at hp
    exact absurd hp.1.symm (hh b (by simp))
  | a :: g, [], r, hg, _, hp => by
    rw [List.nil_append, List.cons_append, List.cons_prefix_cons] at hp
    exact absurd hp.1 (hg a (by simp))
  | a :: g, b :: h, r, hg, hh, hp => by
    rw [List.cons_append, List.cons_append, List.cons_prefix_cons] at hp
    rw [hp.1, word_prefix g h r (fun c hc => hg c (by simp [hc])) (fun c hc => hh c (by simp [hc])) hp.2]

theorem replaceAll_pieces (val : List Char → List Char) (g : List Char) (hg : ∀ c ∈ g, c.isAlphanum ∨ c = '_')
    (ps : List Piece) (h : ∀ p ∈ ps, p.Ok) : ∀ fuel, (ps.flatMap Piece.text).length ≤ fuel →
    replaceAll (refText g) (val g) fuel (ps.flatMap Piece.text) = (ps.map (Piece.subst val [g])).flatMap Piece.text := by
  induction ps with
  | nil => intro fuel _; cases fuel <;> rfl
  | cons p ps ih =>
    intro fuel hf
    have hp := h p (by simp)
    have hps := ih (fun q hq => h q (by simp [hq]))
    rw [List.map_cons, List.flatMap_cons, List.flatMap_cons] at *
    cases p with
    | lit t =>
      rw [Piece.text, replaceAll_lit g _ t _ hp fuel hf, hps _ (by simp [Piece.text] at hf ⊢; omega)]
      rfl
    | ref k =>
      obtain ⟨hne, hw⟩ := hp
      obtain ⟨f, rfl⟩ : ∃ f, fuel = f + 1 := ⟨fuel - 1, by simp [Piece.text] at hf; omega⟩
      by_cases hk : k = g
      · subst hk
        have e : (Piece.ref k).text ++ ps.flatMap Piece.text = refText k ++ ps.flatMap Piece.text := rfl
        rw [e]
        have hpre : (refText k).isPrefixOf (refText k ++ ps.flatMap Piece.text) = true := by
          rw [List.isPrefixOf_iff_prefix]; exact List.prefix_append _ _
        have hc : refText k ++ ps.flatMap Piece.text = '$' :: ('{' :: (k ++ ['}']) ++ ps.flatMap Piece.text) := rfl
        rw [hc] at hpre ⊢
        rw [replaceAll, if_pos hpre, ← hc, List.drop_left, hps f (by
            simp only [Piece.text, List.length_cons, List.length_append] at hf; omega)]
        simp [Piece.subst, Piece.text]
      · have hn : ¬ (refText g).isPrefixOf ('$' :: ('{' :: (k ++ ['}']) ++ ps.flatMap Piece.text)) = true := by
          rw [List.isPrefixOf_iff_prefix]
          intro hpre
          unfold refText at hpre
          rw [List.cons_append, List.cons_prefix_cons, List.cons_prefix_cons, List.append_assoc, List.singleton_append] at hpre
          exact hk (word_prefix g k _ (fun c hc => (word_ne_brace (hg c hc)).1) (fun c hc => (word_ne_brace (hw c hc)).1)
            hpre.2.2).symm
        have hl : '$' ∉ '{' :: (k ++ ['}']) := by
          simp only [List.mem_cons, List.mem_append, List.not_mem_nil, or_false, not_or]
          exact ⟨by decide, fun hm => (word_ne_brace (hw _ hm)).2 rfl, by decide⟩
        have hc : (Piece.ref k).text ++ ps.flatMap Piece.text = '$' :: (('{' :: (k ++ ['}'])) ++ ps.flatMap Piece.text) := rfl
        rw [hc] at hf ⊢
        rw [replaceAll, if_neg hn, replaceAll_lit g _ _ _ hl f (by rw [List.length_cons] at hf; omega),
          hps _ (by simp at hf ⊢; omega)]
        simp [Piece.subst, hk, Piece.text]

theorem subst_ok (val : List Char → List Char) (L : List (List Char)) (hv : ∀ g ∈ L, '$' ∉ val g) (p : Piece) (h : p.Ok) :
    (p.subst val L).Ok := by
  cases p with
  | lit t => exact h
  | ref k =>
    simp only [Piece.subst]
    split
    · rename_i hk; exact hv k hk
    · exact h

theorem replace_fold (val : List Char → List Char) : ∀ (L : List (List Char)) (ps : List Piece), (∀ p ∈ ps, p.Ok) →
    (∀ g ∈ L, ∀ c ∈ g, c.isAlphanum ∨ c = '_') → (∀ g ∈ L, '$' ∉ val g) →
    L.foldl (fun full g => replaceAll (refText g) (val g) full.length full) (ps.flatMap Piece.text) =
      (ps.map (Piece.subst val L)).flatMap Piece.text := by
  intro L
  induction L with
  | nil =>
    intro ps _ _ _
    have : Piece.subst val [] = id := by funext p; cases p <;> simp [Piece.subst]
    rw [this, List.map_id]; rfl
  | cons g L ih =>
    intro ps hps hw hv
    rw [List.foldl_cons, replaceAll_pieces val g (hw g (by simp)) ps hps _ le_rfl,
      ih _ (by
        intro p hp
        obtain ⟨q, hq, rfl⟩ := List.mem_map.mp hp
        exact subst_ok val [g] (fun k hk => by rw [List.mem_singleton.mp hk]; exact hv g (by simp)) q (hps q hq))
        (fun k hk => hw k (by simp [hk])) (fun k hk => hv k (by simp [hk])), List.map_map]
    congr 1
    apply List.map_congr_left
    intro p _
    cases p with
    | lit t => rfl
    | ref k =>
      simp only [Function.comp, Piece.subst, List.mem_singleton, List.mem_cons]
      by_cases h1 : k = g
      · simp [h1]
      · simp [h1]

/-- C140: a value made of texts without `$` and of references, with variables whose values contain no `$`: every reference is
replaced by the value of its variable (by the name, if it is not defined), all at once, and the texts stay.
Missing: variables whose values contain references, see the counterexample. -/
theorem C140_expand_partial (env : List Char → Option (List Char)) (ps : List Piece) (h : ∀ p ∈ ps, p.Ok)
    (hv : ∀ g, Piece.ref g ∈ ps → '$' ∉ (env g).getD g) :
    expandEnv env (ps.flatMap Piece.text) = ps.flatMap (Piece.value env) := by
  unfold expandEnv
  simp only
  rw [findRefs_pieces ps h _ le_rfl]
  have hmem : ∀ g, g ∈ ps.filterMap Piece.name? ↔ Piece.ref g ∈ ps := by
    intro g
    rw [List.mem_filterMap]
    constructor
    · rintro ⟨p, hp, he⟩
      cases p with
      | lit t => cases he
      | ref k => cases he; exact hp
    · intro hg; exact ⟨_, hg, rfl⟩
  rw [replace_fold (fun g => (env g).getD g) _ ps h (fun g hg => (h _ ((hmem g).mp hg)).2) (fun g hg => hv g ((hmem g).mp hg))]
  rw [List.flatMap_map]
  apply List.flatMap_congr
  intro p hp
  cases p with
  | lit t => rfl
  | ref k =>
    simp only [Piece.subst, (hmem k).mpr hp, if_true]
    rfl

/-- An environment: A is `${B}`, B is x. -/
def exEnv (g : List Char) : Option (List Char) :=
  if g = "A".toList then some "${B}".toList else if g = "B".toList then some "x".toList else none

/-- C140 is false for values that contain references: whether they are replaced again depends on the order in which the
variables are mentioned. -/
theorem C140_nested_counterexample :
    expandEnv exEnv "${A}-${B}".toList = "x-x".toList ∧ expandEnv exEnv "${B}-${A}".toList = "x-${B}".toList := by
  decide +kernel

example : expandEnv exEnv "/data/${B}/${USER}_$HOME".toList = "/data/x/USER_$HOME".toList := by decide +kernel

example : (∀ p ∈ [Piece.lit "/data/".toList, .ref "B".toList, .lit "/".toList, .ref "C_1".toList], p.Ok) ∧
    '$' ∉ (exEnv "B".toList).getD "B".toList := by
  constructor
  · intro p hp
    simp only [List.mem_cons, List.not_mem_nil, or_false] at hp
    rcases hp with rfl | rfl | rfl | rfl <;> simp [Piece.Ok] <;> decide
  · decide +kernel

end Metcalcpy.Props
