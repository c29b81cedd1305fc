import Verif.Spec.HexTool
import Mathlib.Data.List.Basic
import Mathlib.Tactic.IntervalCases

/-! Proof machinery for C60. -/

namespace Verif.HexTool

open Verif

theorem isSpace_iff (c : Char) : isSpace c = true ↔ c ∈ [' ', '\t', '\n', '\x0b', '\x0c', '\r'] := by
  simp [isSpace, or_assoc]

instance (c : Char) (n : Nat) : Decidable (IsDigit c n) := inferInstanceAs (Decidable (_ ∨ _))

theorem hexDigit_ascii : ∀ k < 128, ∀ n < 64, hexDigit (Char.ofNat k) = some n →
    n < 16 ∧ IsDigit (Char.ofNat k) n := by decide +kernel

theorem hexDigit_small {c : Char} {n : Nat} (h : hexDigit c = some n) : c.toNat < 128 ∧ n < 64 := by
  unfold hexDigit at h
  have le : ∀ a b : Char, a ≤ b ↔ a.toNat ≤ b.toNat := fun a b => Iff.rfl
  simp only [le] at h
  split at h
  · next g => injection h with h; have := g.1; have := g.2; simp at *; omega
  · split at h
    · next g => injection h with h; have := g.1; have := g.2; simp at *; omega
    · split at h
      · next g => injection h with h; have := g.1; have := g.2; simp at *; omega
      · cases h

theorem hexDigit_iff (c : Char) (n : Nat) : hexDigit c = some n ↔ n < 16 ∧ IsDigit c n := by
  constructor
  · intro h
    obtain ⟨h1, h2⟩ := hexDigit_small h
    have := hexDigit_ascii c.toNat h1 n h2
    rw [Char.ofNat_toNat] at this
    exact this h
  · rintro ⟨h1, h2⟩
    unfold IsDigit at h2
    interval_cases n <;> simp at h2 <;> rcases h2 with rfl | rfl <;> decide

theorem digit_not_space {c : Char} {n : Nat} (h : IsDigit c n) : isSpace c = false := by
  have hn : n < 16 := by
    rcases h with h | h
    · exact (List.getElem?_eq_some_iff.1 h).1
    · exact (List.getElem?_eq_some_iff.1 h).1
  rcases h with h | h <;> interval_cases n <;> simp at h <;> subst h <;> decide

theorem split_byte {h l : Nat} (hh : h < 16) (hl : l < 16) :
    (UInt8.ofNat (16 * h + l)).toNat / 16 = h ∧ (UInt8.ofNat (16 * h + l)).toNat % 16 = l := by
  rw [UInt8.toNat_ofNat']
  omega

theorem join_byte (b : UInt8) : UInt8.ofNat (16 * (b.toNat / 16) + b.toNat % 16) = b := by
  rw [Nat.div_add_mod]; exact UInt8.ofNat_toNat

theorem removeSpaces_gap {gap : List Char} (h : ∀ c ∈ gap, c = ' ') : removeSpaces gap = [] := by
  simp only [removeSpaces, List.filter_eq_nil_iff]
  intro c hc
  simp [h c hc]

theorem removeSpaces_append (a b : List Char) : removeSpaces (a ++ b) = removeSpaces a ++ removeSpaces b :=
  List.filter_append ..

theorem removeSpaces_cons {c : Char} (s : List Char) (h : isSpace c = false) :
    removeSpaces (c :: s) = c :: removeSpaces s := by
  have : c ≠ ' ' := by rintro rfl; cases h
  simp [removeSpaces, this]

/-- Written text decodes. -/
theorem decode_written {bs : List UInt8} {s : List Char} (h : Written bs s) :
    decodeHex (removeSpaces s) = .ok bs := by
  induction h with
  | nil => rfl
  | space _ ih => exact ih
  | byte gap h1 h2 h3 _ ih =>
    next b bs s h l _ =>
    rw [removeSpaces_cons _ (digit_not_space h1), removeSpaces_append, removeSpaces_gap h3,
      List.nil_append, removeSpaces_cons _ (digit_not_space h2), decodeHex,
      (hexDigit_iff _ _).2 ⟨by have := b.toNat_lt; omega, h1⟩,
      (hexDigit_iff _ _).2 ⟨by omega, h2⟩, ih]
    simp only [join_byte]

/-- The first character that is not a space. -/
theorem removeSpaces_eq_cons {s r : List Char} {c : Char} (h : removeSpaces s = c :: r) :
    ∃ gap t, s = gap ++ c :: t ∧ (∀ x ∈ gap, x = ' ') ∧ removeSpaces t = r := by
  induction s with
  | nil => cases h
  | cons a s ih =>
    by_cases ha : a = ' '
    · subst ha
      obtain ⟨gap, t, rfl, h2, h3⟩ := ih h
      exact ⟨' ' :: gap, t, rfl, by simpa using h2, h3⟩
    · have : removeSpaces (a :: s) = a :: removeSpaces s := by simp [removeSpaces, ha]
      rw [this] at h
      injection h with h1 h2
      subst h1
      exact ⟨[], s, rfl, by simp, h2⟩

theorem written_gap {gap : List Char} (h : ∀ x ∈ gap, x = ' ') {bs : List UInt8} {s : List Char}
    (hs : Written bs s) : Written bs (gap ++ s) := by
  induction gap with
  | nil => exact hs
  | cons a gap ih =>
    rw [h a (by simp)]
    exact .space (ih fun x hx => h x (by simp [hx]))

/-- What decodes was written. -/
theorem written_decode {bs : List UInt8} {s : List Char} (h : decodeHex (removeSpaces s) = .ok bs) :
    Written bs s := by
  induction bs generalizing s with
  | nil =>
    have hs : removeSpaces s = [] := by
      cases hr : removeSpaces s with
      | nil => rfl
      | cons a r =>
        rw [hr] at h
        cases r with
        | nil => cases h
        | cons b r => simp only [decodeHex] at h; split at h <;> simp at h
    have : ∀ x ∈ s, x = ' ' := by
      intro x hx
      have := List.filter_eq_nil_iff.1 hs x hx
      simpa using this
    simpa using written_gap this .nil
  | cons b bs ih =>
    cases hr : removeSpaces s with
    | nil => rw [hr] at h; cases h
    | cons a r =>
      cases hr' : r with
      | nil => rw [hr, hr'] at h; cases h
      | cons c t =>
        subst hr'
        rw [hr] at h
        simp only [decodeHex] at h
        split at h
        · next x y z hx hy hz =>
          injection h with h
          injection h with h1 h2
          subst h1 h2
          obtain ⟨gap, s', rfl, g1, g2⟩ := removeSpaces_eq_cons hr
          obtain ⟨gap', s'', rfl, g3, g4⟩ := removeSpaces_eq_cons g2
          rw [hexDigit_iff] at hx hy
          obtain ⟨e1, e2⟩ := split_byte hx.1 hy.1
          refine written_gap g1 (.byte gap' ?_ ?_ g3 (ih (g4 ▸ hz)))
          · rw [e1]; exact hx.2
          · rw [e2]; exact hy.2
        · cases h

/-- Only the spaces of a written text count as white space. -/
theorem written_spaces {bs : List UInt8} {s : List Char} (h : Written bs s) :
    ∀ c ∈ s, isSpace c = true → c = ' ' := by
  induction h with
  | nil => simp
  | space _ ih =>
    intro c hc hs
    rcases List.mem_cons.1 hc with rfl | hc
    · rfl
    · exact ih c hc hs
  | byte gap h1 h2 h3 _ ih =>
    intro c hc hs
    simp only [List.mem_cons, List.mem_append] at hc
    rcases hc with rfl | hc | rfl | hc
    · rw [digit_not_space h1] at hs; cases hs
    · exact h3 c hc
    · rw [digit_not_space h2] at hs; cases hs
    · exact ih c hc hs

theorem removeSpaces_dropWhile {s : List Char} (h : ∀ c ∈ s, isSpace c = true → c = ' ') :
    removeSpaces (s.dropWhile isSpace) = removeSpaces s := by
  induction s with
  | nil => rfl
  | cons a s ih =>
    by_cases ha : isSpace a = true
    · rw [List.dropWhile_cons_of_pos ha, ih fun c hc => h c (by simp [hc]), h a (by simp) ha]
      rfl
    · rw [List.dropWhile_cons_of_neg ha]

theorem dropWhile_blank {w : List Char} (h : Blank w) (s : List Char) :
    (w ++ s).dropWhile isSpace = s.dropWhile isSpace := by
  induction w with
  | nil => rfl
  | cons a w ih =>
    rw [List.cons_append, List.dropWhile_cons_of_pos ((isSpace_iff a).2 (h a (by simp)))]
    exact ih fun c hc => h c (by simp [hc])

theorem removeSpaces_reverse (s : List Char) : removeSpaces s.reverse = (removeSpaces s).reverse :=
  List.filter_reverse ..

/-- Blanks around a text do not matter. -/
theorem removeSpaces_strip {w s w' : List Char} (hw : Blank w) (hw' : Blank w')
    (h : ∀ c ∈ s, isSpace c = true → c = ' ') : removeSpaces (strip (w ++ s ++ w')) = removeSpaces s := by
  unfold strip
  rw [List.append_assoc, dropWhile_blank hw, List.dropWhile_append]
  have hd := removeSpaces_dropWhile h
  split
  · next he =>
    rw [List.isEmpty_iff] at he
    have := dropWhile_blank hw' []
    rw [List.append_nil] at this
    rw [this, ← hd, he]
    rfl
  · rw [List.reverse_append, dropWhile_blank (w := w'.reverse) (by intro c hc; exact hw' c (by simpa using hc)),
      removeSpaces_reverse, removeSpaces_dropWhile, removeSpaces_reverse, List.reverse_reverse, hd]
    intro c hc hs
    rw [List.mem_reverse] at hc
    exact h c (List.dropWhile_sublist _ |>.subset hc) hs

theorem mem_takeWhile {s : List Char} {c : Char} (h : c ∈ s.takeWhile isSpace) : isSpace c = true := by
  induction s with
  | nil => cases h
  | cons a s ih =>
    by_cases ha : isSpace a = true
    · rw [List.takeWhile_cons_of_pos ha] at h
      rcases List.mem_cons.1 h with rfl | h
      · exact ha
      · exact ih h
    · rw [List.takeWhile_cons_of_neg ha] at h; cases h

/-- The blanks that are stripped. -/
theorem strip_split (s : List Char) : ∃ w w', s = w ++ strip s ++ w' ∧ Blank w ∧ Blank w' := by
  refine ⟨s.takeWhile isSpace, (((s.dropWhile isSpace).reverse).takeWhile isSpace).reverse, ?_, ?_, ?_⟩
  · rw [List.append_assoc]
    conv_lhs => rw [← List.takeWhile_append_dropWhile (p := isSpace) (l := s)]
    congr 1
    unfold strip
    rw [← List.reverse_append, List.takeWhile_append_dropWhile, List.reverse_reverse]
  · intro c hc; exact (isSpace_iff c).1 (mem_takeWhile hc)
  · intro c hc
    rw [List.mem_reverse] at hc
    exact (isSpace_iff c).1 (mem_takeWhile hc)

theorem decode_error {s : List Char} {e : PyErr} (h : decodeHex s = .error e) : e = .typeError := by
  unfold decodeHex at h
  split at h
  · cases h
  · cases h; rfl
  · split at h
    · cases h
    · cases h; rfl

theorem bytes_iff (s : List Char) (bs : List UInt8) : bytes s = .ok bs ↔ Spells s bs := by
  constructor
  · intro h
    obtain ⟨w, w', h1, h2, h3⟩ := strip_split s
    exact ⟨w, strip s, w', h1, h2, h3, written_decode h⟩
  · rintro ⟨w, t, w', rfl, h2, h3, h4⟩
    unfold bytes
    rw [removeSpaces_strip h2 h3 (written_spaces h4)]
    exact decode_written h4

end Verif.HexTool
