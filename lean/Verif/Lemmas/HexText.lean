import Verif.Model.HexText
import Verif.Lemmas.HexTool

/-! Lemmas about the hexadecimal texts. -/

namespace Verif.HexText

open Verif Verif.HexTool

theorem digit_isDigit (n : Nat) (h : n < 16) : IsDigit (digit n) n := by
  have : ∀ m : Fin 16, "0123456789abcdef".toList[m.val]? = some (digit m.val) := by decide
  exact .inl (this ⟨n, h⟩)

theorem Written.append {a b : List UInt8} {s t : List Char} (h : Written a s) (k : Written b t) :
    Written (a ++ b) (s ++ t) := by
  induction h with
  | nil => exact k
  | space _ ih => exact .space ih
  | byte gap h1 h2 h3 _ ih =>
    have := Written.byte gap h1 h2 h3 ih
    simpa using this

theorem written_byte (b : UInt8) : Written [b] (byte b) :=
  .byte [] (digit_isDigit _ (by have := b.toNat_lt; omega)) (digit_isDigit _ (by omega)) (by simp) .nil

theorem written_joined : ∀ bs, Written bs (joined bs)
  | [] => .nil
  | [b] => written_byte b
  | b :: c :: bs => Written.append (written_byte b) (.space (written_joined (c :: bs)))

theorem written_hexlify (bs : List UInt8) : Written bs (hexlify bs) := by
  induction bs with
  | nil => exact .nil
  | cons b bs ih => exact Written.append (written_byte b) ih

theorem written_spells {bs : List UInt8} {s : List Char} (h : Written bs s) : Spells s bs :=
  ⟨[], s, [], by simp, by simp [Blank], by simp [Blank], h⟩

theorem written_spaces {sep : List Char} (h : ∀ c ∈ sep, c = ' ') : Written [] sep := by
  induction sep with
  | nil => exact .nil
  | cons c s ih =>
    rw [h c (by simp)]
    exact .space (ih fun x hx => h x (by simp [hx]))

theorem written_intercalate {sep : List Char} (h : ∀ c ∈ sep, c = ' ') :
    ∀ fs : List (List UInt8), Written fs.flatten (sep.intercalate (fs.map joined))
  | [] => by simpa [List.intercalate] using Written.nil
  | [f] => by simpa [List.intercalate] using written_joined f
  | f :: g :: fs => by
    have := Written.append (written_joined f) (Written.append (written_spaces h) (written_intercalate h (g :: fs)))
    simpa [List.intercalate, List.intersperse] using this

theorem digit_notSpace (n : Nat) (h : n < 16) : isSpace (digit n) = false := by
  have : ∀ m : Fin 16, isSpace (digit m.val) = false := by decide
  exact this ⟨n, h⟩

theorem joined_head : ∀ {bs : List UInt8}, bs ≠ [] → ∃ c r, joined bs = c :: r ∧ isSpace c = false
  | [], h => absurd rfl h
  | [b], _ => ⟨_, _, rfl, digit_notSpace _ (by have := b.toNat_lt; omega)⟩
  | b :: c :: bs, _ => ⟨_, _, rfl, digit_notSpace _ (by have := b.toNat_lt; omega)⟩

theorem joined_last : ∀ {bs : List UInt8}, bs ≠ [] → ∃ c r, joined bs = r ++ [c] ∧ isSpace c = false
  | [], h => absurd rfl h
  | [b], _ => ⟨digit (b.toNat % 16), [digit (b.toNat / 16)], rfl, digit_notSpace _ (by omega)⟩
  | b :: c :: bs, _ => by
    obtain ⟨x, r, h1, h2⟩ := joined_last (bs := c :: bs) (by simp)
    exact ⟨x, byte b ++ ' ' :: r, by rw [joined, h1]; simp, h2⟩

/-- Nothing is stripped from a text that begins and ends with other characters than blanks. -/
theorem strip_id {s : List Char} {c d : Char} {r q : List Char} (h1 : s = c :: r) (h2 : s = q ++ [d])
    (hc : isSpace c = false) (hd : isSpace d = false) : strip s = s := by
  unfold strip
  rw [h1, List.dropWhile_cons_of_neg (by simp [hc]), ← h1, h2]
  simp [List.dropWhile_cons_of_neg, hd]

/-- Only digits are decoded. -/
theorem decodeHex_digits : ∀ {s : List Char} {bs : List UInt8}, decodeHex s = .ok bs → ∀ c ∈ s, hexDigit c ≠ none
  | [], _, _, c, hc => by simp at hc
  | [_], _, h, _, _ => by simp [decodeHex] at h
  | a :: b :: r, bs, h, c, hc => by
    unfold decodeHex at h
    split at h
    · next x y ws h1 h2 h3 =>
      rcases List.mem_cons.1 hc with rfl | hc
      · rw [h1]; simp
      rcases List.mem_cons.1 hc with rfl | hc
      · rw [h2]; simp
      · exact decodeHex_digits h3 c hc
    · cases h

end Verif.HexText
