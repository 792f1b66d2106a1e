/-
`int(text)` reads exactly the integer texts.
-/
import Verif.Model.Strings
import Verif.Spec.IntText
import Mathlib.Tactic.Ring
import Mathlib.Tactic.Linarith

namespace Metcalcpy
open Spec

theorem decimalNumber_nil : decimalNumber [] = 0 := rfl

theorem decimalNumber_cons (c : Char) (ds : List Char) :
    decimalNumber (c :: ds) = (c.toNat - 48) * 10 ^ ds.length + decimalNumber ds := by
  unfold decimalNumber
  rw [List.reverse_cons, List.map_append, Nat.ofDigits_append]
  simp
  ring

theorem parseDigits_digit {c : Char} (h : c.isDigit = true) (acc : ℕ) (cs : List Char) :
    parseDigits acc (c :: cs) = parseDigits (acc * 10 + digitVal c) cs := by
  rw [parseDigits.eq_def]; simp [h]

theorem parseDigits_other {c : Char} (h : ¬ c.isDigit = true) (hu : ¬ (c == '_') = true) (acc : ℕ) (cs : List Char) :
    parseDigits acc (c :: cs) = none := by
  rw [parseDigits.eq_def]; simp only [h, hu]; simp

theorem parseDigits_iff : ∀ (acc : ℕ) (cs : List Char) (n : ℕ), parseDigits acc cs = some n ↔
    (cs = [] ∧ n = acc) ∨ ∃ ds, (DigitText cs ds ∨ ∃ text, cs = '_' :: text ∧ DigitText text ds) ∧
      n = acc * 10 ^ ds.length + decimalNumber ds := by
  have fwd : ∀ (acc : ℕ) (cs : List Char) (n : ℕ), parseDigits acc cs = some n →
    (cs = [] ∧ n = acc) ∨ ∃ ds, (DigitText cs ds ∨ ∃ text, cs = '_' :: text ∧ DigitText text ds) ∧
      n = acc * 10 ^ ds.length + decimalNumber ds := by
    have key : ∀ (c : Char) (acc n : ℕ) (cs : List Char), c.isDigit = true →
        ((cs = [] ∧ n = acc * 10 + digitVal c) ∨ ∃ ds, (DigitText cs ds ∨ ∃ text, cs = '_' :: text ∧ DigitText text ds) ∧
          n = (acc * 10 + digitVal c) * 10 ^ ds.length + decimalNumber ds) →
        ∃ ds, DigitText (c :: cs) ds ∧ n = acc * 10 ^ ds.length + decimalNumber ds := by
      rintro c acc n cs hc (⟨rfl, rfl⟩ | ⟨ds, h | ⟨text, rfl, h⟩, rfl⟩)
      · exact ⟨[c], .one hc, by simp [decimalNumber_cons, decimalNumber_nil, digitVal]⟩
      · refine ⟨c :: ds, .digit hc h, ?_⟩
        rw [decimalNumber_cons, List.length_cons]
        have : digitVal c = c.toNat - 48 := rfl
        rw [this]; ring
      · refine ⟨c :: ds, .underscore hc h, ?_⟩
        rw [decimalNumber_cons, List.length_cons]
        have : digitVal c = c.toNat - 48 := rfl
        rw [this]; ring
    intro acc cs
    induction acc, cs using parseDigits.induct with
    | case1 acc => intro n h; left; simpa [parseDigits, eq_comm] using h
    | case2 acc c cs hc ih =>
      intro n h
      rw [parseDigits_digit hc] at h
      right
      obtain ⟨ds, h1, h2⟩ := key c acc n cs hc (ih n h)
      exact ⟨ds, Or.inl h1, h2⟩
    | case3 acc c hc hu => intro n h; rw [parseDigits, if_neg hc, if_pos hu] at h; simp at h
    | case4 acc c hc hu d ds hd ih =>
      intro n h
      simp only [parseDigits, if_neg hc, if_pos hu, if_pos hd] at h
      right
      obtain ⟨es, h1, h2⟩ := key d acc n ds hd (ih n h)
      have : c = '_' := by simpa using hu
      exact ⟨es, Or.inr ⟨_, by rw [this], h1⟩, h2⟩
    | case5 acc c hc hu d ds hd =>
      intro n h
      simp only [parseDigits, if_neg hc, if_pos hu, if_neg hd] at h
      simp at h
    | case6 acc c cs hc hu => intro n h; rw [parseDigits_other hc hu] at h; simp at h
  have bwd : ∀ (text ds : List Char), DigitText text ds → ∀ acc,
      parseDigits acc text = some (acc * 10 ^ ds.length + decimalNumber ds) ∧
      parseDigits acc ('_' :: text) = some (acc * 10 ^ ds.length + decimalNumber ds) := by
    have under : ∀ (c : Char) (cs : List Char) (acc : ℕ), c.isDigit = true →
        parseDigits acc ('_' :: c :: cs) = parseDigits acc (c :: cs) := by
      intro c cs acc hc
      rw [parseDigits_digit hc, parseDigits.eq_def]
      simp [hc]
    intro text ds h
    induction h with
    | @one c hc =>
      intro acc
      rw [under c [] acc hc]
      simp [parseDigits, hc, digitVal, decimalNumber_cons, decimalNumber_nil]
    | @digit c text ds hc _ ih =>
      intro acc
      rw [under c _ acc hc, and_self, parseDigits_digit hc, (ih _).1, decimalNumber_cons, List.length_cons]
      have : digitVal c = c.toNat - 48 := rfl
      rw [this]; congr 1; ring
    | @underscore c text ds hc _ ih =>
      intro acc
      rw [under c _ acc hc, and_self, parseDigits_digit hc, (ih _).2, decimalNumber_cons, List.length_cons]
      have : digitVal c = c.toNat - 48 := rfl
      rw [this]; congr 1; ring
  intro acc cs n
  refine ⟨fwd acc cs n, ?_⟩
  rintro (⟨rfl, rfl⟩ | ⟨ds, h | ⟨text, rfl, h⟩, rfl⟩)
  · rfl
  · exact (bwd _ _ h acc).1
  · exact (bwd _ _ h acc).2

theorem parseNat_iff (cs : List Char) (n : ℕ) :
    parseNat cs = some n ↔ ∃ ds, DigitText cs ds ∧ n = decimalNumber ds := by
  cases cs with
  | nil =>
    simp only [parseNat, reduceCtorEq, false_iff, not_exists, not_and]
    intro ds h; cases h
  | cons c cs =>
    rw [parseNat]
    by_cases hc : c.isDigit = true
    · rw [if_pos hc, parseDigits_iff]
      have hv : digitVal c = c.toNat - 48 := rfl
      constructor
      · rintro (⟨rfl, rfl⟩ | ⟨ds, h | ⟨text, rfl, h⟩, rfl⟩)
        · exact ⟨[c], .one hc, by simp [decimalNumber_cons, decimalNumber_nil, hv]⟩
        · exact ⟨c :: ds, .digit hc h, by rw [decimalNumber_cons, hv]⟩
        · exact ⟨c :: ds, .underscore hc h, by rw [decimalNumber_cons, hv]⟩
      · rintro ⟨ds, h, rfl⟩
        cases h with
        | one => left; simp [decimalNumber_cons, decimalNumber_nil, hv]
        | @digit _ _ ds _ h => right; exact ⟨ds, Or.inl h, by rw [decimalNumber_cons, hv]⟩
        | @underscore _ text ds _ h => right; exact ⟨ds, Or.inr ⟨_, rfl, h⟩, by rw [decimalNumber_cons, hv]⟩
    · rw [if_neg hc]
      simp only [reduceCtorEq, false_iff, not_exists, not_and]
      intro ds h; cases h <;> contradiction

theorem isBlank_iff (c : Char) : isBlank c = true ↔ c = ' ' ∨ c = '\t' ∨ c = '\n' ∨ c = '\r' := by
  simp [isBlank, or_assoc]

theorem digitText_ends {text ds : List Char} (h : DigitText text ds) :
    (∃ c cs, text = c :: cs ∧ c.isDigit = true) ∧ ∃ cs c, text = cs ++ [c] ∧ c.isDigit = true := by
  induction h with
  | @one c hc => exact ⟨⟨c, [], rfl, hc⟩, [], c, rfl, hc⟩
  | @digit c text ds hc _ ih =>
    obtain ⟨-, cs, d, rfl, hd⟩ := ih
    exact ⟨⟨c, _, rfl, hc⟩, c :: cs, d, by simp, hd⟩
  | @underscore c text ds hc _ ih =>
    obtain ⟨-, cs, d, rfl, hd⟩ := ih
    exact ⟨⟨c, _, rfl, hc⟩, c :: '_' :: cs, d, by simp, hd⟩

theorem not_blank_of_digit {c : Char} (h : c.isDigit = true) : isBlank c = false := by
  rw [Bool.eq_false_iff, ne_eq, isBlank_iff]
  rintro (rfl | rfl | rfl | rfl) <;> simp at h

theorem dropWhile_blank {b l : List Char} (hb : ∀ c ∈ b, isBlank c = true) (hl : ∀ c cs, l = c :: cs → isBlank c = false) :
    (b ++ l).dropWhile isBlank = l := by
  rw [List.dropWhile_append_of_pos hb]
  cases l with
  | nil => rfl
  | cons c cs => rw [List.dropWhile_cons, hl c cs rfl]; rfl

theorem stripBlank_eq {b1 core b2 : List Char} (h1 : ∀ c ∈ b1, isBlank c = true) (h2 : ∀ c ∈ b2, isBlank c = true)
    (hs : ∃ c cs, core = c :: cs ∧ isBlank c = false) (he : ∃ cs c, core = cs ++ [c] ∧ isBlank c = false) :
    stripBlank (b1 ++ core ++ b2) = core := by
  unfold stripBlank
  obtain ⟨c, cs, ec, hc⟩ := hs
  obtain ⟨ds, d, ed, hd⟩ := he
  rw [List.append_assoc, dropWhile_blank h1 (by
    intro x xs hx; rw [ec] at hx; simp at hx; rw [← hx.1]; exact hc), List.reverse_append,
    dropWhile_blank (by simpa using h2) (by
      intro x xs hx; rw [ed] at hx; simp at hx; rw [← hx.1]; exact hd), List.reverse_reverse]

theorem takeWhile_blank {c : Char} {l : List Char} (h : c ∈ l.takeWhile isBlank) : isBlank c = true := by
  have := List.all_takeWhile (l := l) (p := isBlank)
  rw [List.all_eq_true] at this
  exact this c h

theorem stripBlank_split (l : List Char) : ∃ b1 b2, (∀ c ∈ b1, isBlank c = true) ∧ (∀ c ∈ b2, isBlank c = true) ∧
    l = b1 ++ stripBlank l ++ b2 := by
  refine ⟨l.takeWhile isBlank, ((l.dropWhile isBlank).reverse.takeWhile isBlank).reverse,
    fun c hc => takeWhile_blank hc, fun c hc => takeWhile_blank (List.mem_reverse.mp hc), ?_⟩
  unfold stripBlank
  rw [List.append_assoc, ← List.reverse_append, List.takeWhile_append_dropWhile, List.reverse_reverse,
    List.takeWhile_append_dropWhile]

theorem pyInt?_iff (s : String) (z : ℤ) : pyInt? s = some z ↔ IsIntText s z := by
  constructor
  · intro h
    obtain ⟨b1, b2, h1, h2, e⟩ := stripBlank_split s.toList
    have hb : ∀ c ∈ b1 ++ b2, c = ' ' ∨ c = '\t' ∨ c = '\n' ∨ c = '\r' := by
      intro c hc
      rw [← isBlank_iff]
      rcases List.mem_append.mp hc with hc | hc
      · exact h1 c hc
      · exact h2 c hc
    unfold pyInt? at h
    split at h
    · rename_i cs he
      obtain ⟨n, hn, rfl⟩ := Option.map_eq_some_iff.mp h
      obtain ⟨ds, hd, rfl⟩ := (parseNat_iff _ _).mp hn
      exact ⟨b1, b2, cs, ds, hb, hd, Or.inr (Or.inr ⟨by rw [e, he], rfl⟩)⟩
    · rename_i cs he
      obtain ⟨n, hn, rfl⟩ := Option.map_eq_some_iff.mp h
      obtain ⟨ds, hd, rfl⟩ := (parseNat_iff _ _).mp hn
      exact ⟨b1, b2, cs, ds, hb, hd, Or.inr (Or.inl ⟨by rw [e, he], rfl⟩)⟩
    · obtain ⟨n, hn, rfl⟩ := Option.map_eq_some_iff.mp h
      obtain ⟨ds, hd, rfl⟩ := (parseNat_iff _ _).mp hn
      exact ⟨b1, b2, _, ds, hb, hd, Or.inl ⟨e, rfl⟩⟩
  · rintro ⟨b1, b2, text, ds, hb, hd, h⟩
    have h1 : ∀ c ∈ b1, isBlank c = true := fun c hc => (isBlank_iff c).mpr (hb c (by simp [hc]))
    have h2 : ∀ c ∈ b2, isBlank c = true := fun c hc => (isBlank_iff c).mpr (hb c (by simp [hc]))
    obtain ⟨⟨c, cs, ec, hc⟩, es, d, ed, hdd⟩ := digitText_ends hd
    have hn := (parseNat_iff text _).mpr ⟨ds, hd, rfl⟩
    unfold pyInt?
    rcases h with ⟨h, rfl⟩ | ⟨h, rfl⟩ | ⟨h, rfl⟩
    · rw [h, stripBlank_eq h1 h2 ⟨c, cs, ec, not_blank_of_digit hc⟩ ⟨es, d, ed, not_blank_of_digit hdd⟩]
      split
      · simp only [List.cons.injEq] at ec; rw [← ec.1] at hc; simp at hc
      · simp only [List.cons.injEq] at ec; rw [← ec.1] at hc; simp at hc
      · rw [hn]; rfl
    · rw [h, stripBlank_eq h1 h2 ⟨'+', text, rfl, by decide⟩ ⟨'+' :: es, d, by simp [ed], not_blank_of_digit hdd⟩]
      simp [hn]
    · rw [h, stripBlank_eq h1 h2 ⟨'-', text, rfl, by decide⟩ ⟨'-' :: es, d, by simp [ed], not_blank_of_digit hdd⟩]
      simp [hn]

theorem pyInt?_none_iff (s : String) : pyInt? s = none ↔ ∀ z, ¬ IsIntText s z := by
  rw [Option.eq_none_iff_forall_ne_some]
  simp only [ne_eq, pyInt?_iff]

end Metcalcpy
