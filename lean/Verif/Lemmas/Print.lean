import Verif.Model.Print

/-! Helper lemmas for C61 and C62: texts that can be told apart. -/

namespace Verif.Print

open Verif

/-- `r` does not continue a word of characters `p`. -/
def Stops (p : Char → Bool) : Text → Prop
  | [] => True
  | c :: _ => p c = false

theorem word_append {p : Char → Bool} {a b r r' : Text} (ha : ∀ c ∈ a, p c = true) (hb : ∀ c ∈ b, p c = true)
    (hr : Stops p r) (hr' : Stops p r') (h : a ++ r = b ++ r') : a = b ∧ r = r' := by
  induction a generalizing b with
  | nil =>
    cases b with
    | nil => exact ⟨rfl, h⟩
    | cons d b =>
      simp only [List.nil_append, List.cons_append] at h
      subst h
      have := hb d (by simp)
      simp only [Stops] at hr
      rw [hr] at this
      cases this
  | cons c a ih =>
    cases b with
    | nil =>
      simp only [List.nil_append, List.cons_append] at h
      subst h
      have := ha c (by simp)
      simp only [Stops] at hr'
      rw [hr'] at this
      cases this
    | cons d b =>
      simp only [List.cons_append, List.cons.injEq] at h
      obtain ⟨h1, h2⟩ := ih (fun x hx => ha x (by simp [hx])) (fun x hx => hb x (by simp [hx])) h.2
      exact ⟨by rw [h.1, h1], h2⟩

/-- The characters of a decimal number. -/
def num (c : Char) : Bool := c.isDigit || c == '-'

/-- The characters of names and numbers. -/
def wordChar (c : Char) : Bool := c.isAlphanum || c == '-' || c == '_' || c == '.'

theorem num_word {c : Char} (h : num c = true) : wordChar c = true := by
  simp only [num, wordChar, Bool.or_eq_true, Char.isAlphanum] at h ⊢
  tauto

theorem dec_num (v : Int) : ∀ c ∈ dec v, num c = true := by
  intro c hc
  cases v with
  | ofNat n =>
    have := Nat.isDigit_of_mem_toDigits (b := 10) (by omega) (by omega) hc
    simp [num, this]
  | negSucc n =>
    rcases List.mem_cons.1 hc with rfl | hc
    · rfl
    · have := Nat.isDigit_of_mem_toDigits (b := 10) (by omega) (by omega) hc
      simp [num, this]

theorem toDigits_injective {a b : Nat} (h : Nat.toDigits 10 a = Nat.toDigits 10 b) : a = b := by
  have := congrArg (Nat.ofDigitChars 10 · 0) h
  simpa using this

theorem dec_injective {v w : Int} (h : dec v = dec w) : v = w := by
  have hd : ∀ n m : Nat, Nat.toDigits 10 n ≠ '-' :: Nat.toDigits 10 m := by
    intro n m h
    have := Nat.isDigit_of_mem_toDigits (b := 10) (n := n) (c := '-') (by omega) (by omega) (by rw [h]; simp)
    exact absurd this (by decide)
  cases v with
  | ofNat n =>
    cases w with
    | ofNat m => rw [toDigits_injective h]
    | negSucc m => exact absurd h (hd n _)
  | negSucc n =>
    cases w with
    | ofNat m => exact absurd h.symm (hd m _)
    | negSucc m =>
      have := toDigits_injective (List.cons.inj h).2
      rw [show n = m by omega]

theorem dec_append {v w : Int} {r r' : Text} (hr : Stops num r) (hr' : Stops num r')
    (h : dec v ++ r = dec w ++ r') : v = w ∧ r = r' := by
  obtain ⟨h1, h2⟩ := word_append (dec_num v) (dec_num w) hr hr' h
  exact ⟨dec_injective h1, h2⟩

theorem digitChar_hex : ∀ d < 16, wordChar (Nat.digitChar d) = true ∧ Nat.digitChar d ≠ 'L' ∧
    ∀ d' < 16, Nat.digitChar d = Nat.digitChar d' → d = d' := by decide

theorem toDigits16_mem (n : Nat) : ∀ c ∈ Nat.toDigits 16 n, wordChar c = true ∧ c ≠ 'L' := by
  induction n using Nat.strongRecOn with
  | ind n ih =>
    intro c hc
    rw [Nat.toDigits_eq_if (by omega)] at hc
    split at hc
    · next h =>
      rw [List.mem_singleton.1 hc]
      exact ⟨(digitChar_hex n h).1, (digitChar_hex n h).2.1⟩
    · rcases List.mem_append.1 hc with hc | hc
      · exact ih (n / 16) (by omega) c hc
      · rw [List.mem_singleton.1 hc]
        exact ⟨(digitChar_hex _ (by omega)).1, (digitChar_hex _ (by omega)).2.1⟩

theorem toDigits16_injective {a b : Nat} (h : Nat.toDigits 16 a = Nat.toDigits 16 b) : a = b := by
  induction a using Nat.strongRecOn generalizing b with
  | ind a ih =>
    have hl : ∀ n, (Nat.toDigits 16 n).length ≠ 0 := fun n =>
      Nat.ne_of_gt Nat.length_toDigits_pos
    rw [Nat.toDigits_eq_if (by omega), Nat.toDigits_eq_if (n := b) (by omega)] at h
    split at h <;> split at h
    · next h1 h2 =>
      exact (digitChar_hex a h1).2.2 b h2 (by simpa using h)
    · have h1 := congrArg List.length h
      have h2 := hl (b / 16)
      rw [List.length_append, List.length_singleton, List.length_singleton] at h1
      omega
    · have h1 := congrArg List.length h
      have h2 := hl (a / 16)
      rw [List.length_append, List.length_singleton, List.length_singleton] at h1
      omega
    · obtain ⟨h1, h2⟩ := List.append_inj' h rfl
      have e1 := ih (a / 16) (by omega) h1
      have e2 := (digitChar_hex (a % 16) (by omega)).2.2 (b % 16) (by omega) (by simpa using h2)
      omega

theorem hex_word (v : Int) : ∀ c ∈ hex v, wordChar c = true := by
  intro c hc
  simp only [hex, List.cons_append, List.mem_cons, List.mem_append] at hc
  rcases hc with rfl | rfl | hc | hc
  · rfl
  · rfl
  · exact (toDigits16_mem _ c hc).1
  · split at hc
    · rw [List.mem_singleton.1 hc]; rfl
    · cases hc

theorem hex_injective {v w : Int} (hv : 0 ≤ v) (hw : 0 ≤ w) (h : hex v = hex w) : v = w := by
  simp only [hex, List.cons_append, List.cons.injEq, true_and] at h
  have key : ∀ n m : Nat, Nat.toDigits 16 n ≠ Nat.toDigits 16 m ++ ['L'] := fun n m e =>
    (toDigits16_mem n 'L' (by rw [e]; simp)).2 rfl
  split at h <;> split at h
  · have := toDigits16_injective (List.append_cancel_right h)
    omega
  · rw [List.append_nil] at h
    exact absurd h.symm (key _ _)
  · rw [List.append_nil] at h
    exact absurd h (key _ _)
  · have := toDigits16_injective (List.append_cancel_right h)
    omega

/-! ### Members of the finite classes -/

theorem bool_word (b : Bool) : ∀ c ∈ bool b, wordChar c = true := by cases b <;> decide
theorem bool_injective {a b : Bool} (h : bool a = bool b) : a = b := by
  cases a <;> cases b <;> first | rfl | exact absurd h (by decide)

theorem idType_word (b : IdType) : ∀ c ∈ idType b, wordChar c = true := by cases b <;> decide
theorem idType_injective {a b : IdType} (h : idType a = idType b) : a = b := by
  cases a <;> cases b <;> first | rfl | exact absurd h (by decide)

theorem actionCondition_word (b : ActionCondition) : ∀ c ∈ actionCondition b, wordChar c = true := by
  cases b <;> decide
theorem actionCondition_injective {a b : ActionCondition} (h : actionCondition a = actionCondition b) :
    a = b := by
  cases a <;> cases b <;> first | rfl | exact absurd h (by decide)

theorem storageClass_word (b : StorageClass) : ∀ c ∈ storageClass b, wordChar c = true := by
  cases b <;> decide
theorem storageClass_injective {a b : StorageClass} (h : storageClass a = storageClass b) : a = b := by
  cases a <;> cases b <;> first | rfl | exact absurd h (by decide)

theorem interfaceType_word (b : InterfaceType) : ∀ c ∈ interfaceType b, wordChar c = true := by
  cases b <;> decide
theorem interfaceType_injective {a b : InterfaceType} (h : interfaceType a = interfaceType b) : a = b := by
  cases a <;> cases b <;> first | rfl | exact absurd h (by decide)

theorem bandwidth_word (b : Bandwidth) : ∀ c ∈ bandwidth b, wordChar c = true := by cases b <;> decide
theorem bandwidth_injective {a b : Bandwidth} (h : bandwidth a = bandwidth b) : a = b := by
  cases a <;> cases b <;> first | rfl | exact absurd h (by decide)

theorem mode_word (b : EngineeringModeMode) : ∀ c ∈ b.str.toList, wordChar c = true := by
  cases b <;> decide
theorem mode_injective {a b : EngineeringModeMode} (h : a.str.toList = b.str.toList) : a = b := by
  cases a <;> cases b <;> first | rfl | exact absurd h (by decide)

theorem band_word (b : ChannelBand) : ∀ c ∈ lstrip b.name "BAND_".toList, wordChar c = true := by
  cases b <;> decide
theorem band_injective {a b : ChannelBand}
    (h : lstrip a.name "BAND_".toList = lstrip b.name "BAND_".toList) : a = b := by
  cases a <;> cases b <;> first | rfl | exact absurd h (by decide)

theorem header_word (h : ChannelHeader) : ∀ c ∈ h.str, wordChar c = true := by
  obtain ⟨a, b, c⟩ := h
  cases a <;> cases b <;> cases c <;> decide

theorem channel_word (i : ChannelID) : ∀ c ∈ i.str, wordChar c = true := by
  intro c hc
  simp only [ChannelID.str, format3, List.mem_append] at hc
  rcases hc with hc | hc | hc
  · exact header_word _ c hc
  · rw [List.eq_of_mem_replicate hc]; rfl
  · exact num_word (by
      have := Nat.isDigit_of_mem_toDigits (b := 10) (by omega) (by omega) hc
      simp [num, this])

end Verif.Print
