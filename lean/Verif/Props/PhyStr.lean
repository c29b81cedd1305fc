import Verif.Model.PhyStr
import Verif.Spec.Built
import Verif.Lemmas.BuiltOk

/-! C07: string notation of channels. -/

namespace Verif

/-- The header that the notation of a header stands for: `L` is the low rate class. -/
private def shown (h : ChannelHeader) : ChannelHeader :=
  { h with channelClass := if h.channelClass = .LORA then .LO_RATE else h.channelClass }

private theorem format3_length (i : Nat) : 3 ≤ (format3 i).length := by
  simp [format3]; omega

private theorem format3_digits (i : Nat) : ∀ c ∈ format3 i, c.isDigit = true := by
  intro c hc
  rcases List.mem_append.1 hc with hc | hc
  · rw [(List.mem_replicate.1 hc).2]; rfl
  · exact Nat.isDigit_of_mem_toDigits (by decide) (by decide) hc

private theorem format3_small {i : Nat} (h : i < 1000) :
    (format3 i).length = 3 ∧ Nat.ofDigitChars 10 (format3 i) 0 = i := by
  have := (Nat.length_toDigits_le_iff (b := 10) (n := i) (k := 3) (by decide) (by decide)).2 h
  constructor
  · simp [format3]; omega
  · unfold format3
    rw [Nat.ofDigitChars_append, Nat.ofDigitChars_replicate_zero, Nat.mul_zero,
      Nat.ofDigitChars_ten_toDigits]

/-- The three characters that are read back, and their value. -/
private theorem format3_take (i : Nat) (h : i < 100000) :
    Nat.ofDigitChars 10 ((format3 i).take 3) 0 =
      if i < 1000 then i else if i < 10000 then i / 10 else i / 100 := by
  have step : ∀ n, 1000 ≤ n → format3 n = format3 (n / 10) ++ [Nat.digitChar (n % 10)] := by
    intro n hn
    have hd : Nat.toDigits 10 n = Nat.toDigits 10 (n / 10) ++ [Nat.digitChar (n % 10)] :=
      Nat.toDigits_of_base_le (by decide) (by omega)
    have h3 : ¬ (Nat.toDigits 10 (n / 10)).length ≤ 2 := by
      rw [Nat.length_toDigits_le_iff (by decide) (by decide)]; omega
    unfold format3
    rw [hd, List.length_append, List.length_singleton]
    rw [show 3 - ((Nat.toDigits 10 (n / 10)).length + 1) = 0 by omega,
      show 3 - (Nat.toDigits 10 (n / 10)).length = 0 by omega]
    rfl
  have base : ∀ n, n < 1000 → Nat.ofDigitChars 10 ((format3 n).take 3) 0 = n := by
    intro n hn
    obtain ⟨h1, h2⟩ := format3_small hn
    rw [List.take_of_length_le (by omega), h2]
  split
  · next h0 => exact base i h0
  · next h0 =>
    rw [step i (by omega), List.take_append_of_le_length (format3_length _)]
    split
    · exact base _ (by omega)
    · rw [step (i / 10) (by omega), List.take_append_of_le_length (format3_length _),
        Nat.div_div_eq_div_mul]
      exact base _ (by omega)

private theorem header_str_length (h : ChannelHeader) (hb : h.channelBand ≠ .NOT_IMPL) :
    h.str.length = 5 := by
  obtain ⟨a, b, c⟩ := h
  cases a <;> cases b <;> cases c <;> first | rfl | exact absurd rfl hb

private theorem digit_not_white {c : Char} (h : c.isDigit = true) : isWhite c = false := by
  cases hw : isWhite c with
  | false => rfl
  | true =>
    simp only [isWhite, Bool.or_eq_true, beq_iff_eq] at hw
    rcases hw with ((((rfl | rfl) | rfl) | rfl) | rfl) | rfl <;> exact absurd h (by decide)

private theorem dropWhile_white {w r : List Char} (hw : ∀ c ∈ w, isWhite c = true)
    (hr : ∀ c, r.head? = some c → isWhite c = false) : (w ++ r).dropWhile isWhite = r := by
  induction w with
  | nil =>
    cases r with
    | nil => rfl
    | cons c r => exact List.dropWhile_cons_of_neg (by simp [hr c rfl])
  | cons c w ih =>
    rw [List.cons_append, List.dropWhile_cons_of_pos (hw c (by simp))]
    exact ih fun x hx => hw x (by simp [hx])

private theorem mem_takeWhile {p : Char → Bool} {l : List Char} {c : Char} (h : c ∈ l.takeWhile p) :
    p c = true :=
  List.all_eq_true.1 List.all_takeWhile c h

private theorem takeWhile_digits {d r : List Char} (hd : ∀ c ∈ d, c.isDigit = true)
    (hr : ∀ c ∈ r, isWhite c = true) :
    (d ++ r).takeWhile Char.isDigit = d ∧ (d ++ r).dropWhile Char.isDigit = r := by
  induction d with
  | nil =>
    cases r with
    | nil => exact ⟨rfl, rfl⟩
    | cons c r =>
      have hc : ¬ c.isDigit = true := fun h => by
        exact absurd (hr c (by simp)) (by simp [digit_not_white h])
      exact ⟨List.takeWhile_cons_of_neg hc, List.dropWhile_cons_of_neg hc⟩
  | cons c d ih =>
    have hc := hd c (by simp)
    obtain ⟨e1, e2⟩ := ih fun x hx => hd x (by simp [hx])
    rw [List.cons_append, List.takeWhile_cons_of_pos hc, List.dropWhile_cons_of_pos hc, e1, e2]
    exact ⟨rfl, rfl⟩

/-- A text that Python 2's `int` accepts: white space, at most one sign, white space, digits, white space; with
its value. -/
def IntText (t : List Char) (i : Int) : Prop :=
  ∃ w₁ sign w₂ digits w₃ : List Char, t = w₁ ++ sign ++ w₂ ++ digits ++ w₃ ∧
    (∀ c ∈ w₁ ++ w₂ ++ w₃, c ∈ [' ', '\t', '\n', '\x0b', '\x0c', '\r']) ∧
    sign ∈ [[], ['+'], ['-']] ∧ digits ≠ [] ∧ (∀ c ∈ digits, c.isDigit = true) ∧
    i = (if sign = ['-'] then -1 else 1) * (Nat.ofDigitChars 10 digits 0 : Int)

private theorem white_iff (c : Char) :
    isWhite c = true ↔ c ∈ [' ', '\t', '\n', '\x0b', '\x0c', '\r'] := by
  simp only [isWhite, Bool.or_eq_true, beq_iff_eq, List.mem_cons, List.not_mem_nil, or_false]
  tauto

private theorem splitSign_spec (r : List Char) : ∃ sign ∈ [[], ['+'], ['-']],
    r = sign ++ (splitSign r).2 ∧ ((splitSign r).1 = true ↔ sign = ['-']) := by
  unfold splitSign
  split
  · exact ⟨['+'], by simp, rfl, by simp⟩
  · exact ⟨['-'], by simp, rfl, by simp⟩
  · exact ⟨[], by simp, rfl, by simp⟩

/-- `int` accepts exactly these texts. -/
theorem pyInt_iff (t : List Char) (i : Int) : pyInt t = .ok i ↔ IntText t i := by
  constructor
  · intro h
    unfold pyInt at h
    obtain ⟨sign, hs, e, hneg⟩ := splitSign_spec (t.dropWhile isWhite)
    simp only at h
    split at h
    · next hc =>
      refine ⟨t.takeWhile isWhite, sign, (splitSign (t.dropWhile isWhite)).2.takeWhile isWhite,
        _, ((splitSign (t.dropWhile isWhite)).2.dropWhile isWhite).dropWhile Char.isDigit, ?_, ?_, hs,
        hc.1, fun c hx => ?_, ?_⟩
      · simp only [List.append_assoc]
        rw [List.takeWhile_append_dropWhile, List.takeWhile_append_dropWhile, ← e,
          List.takeWhile_append_dropWhile]
      · intro c hx
        rw [← white_iff]
        rw [List.mem_append, List.mem_append] at hx
        rcases hx with (hx | hx) | hx
        · exact mem_takeWhile hx
        · exact mem_takeWhile hx
        · exact List.all_eq_true.1 hc.2 c hx
      · exact mem_takeWhile hx
      · injection h with h
        rw [← h]
        by_cases hn : sign = ['-']
        · rw [if_pos hn, if_pos (hneg.2 hn)]; omega
        · rw [if_neg hn, if_neg (fun h => hn (hneg.1 h))]; omega
    · cases h
  · rintro ⟨w₁, sign, w₂, digits, w₃, rfl, hw, hs, hd, hdig, rfl⟩
    have hw1 : ∀ c ∈ w₁, isWhite c = true := fun c h => (white_iff c).2 (hw c (by simp [h]))
    have hw2 : ∀ c ∈ w₂, isWhite c = true := fun c h => (white_iff c).2 (hw c (by simp [h]))
    have hw3 : ∀ c ∈ w₃, isWhite c = true := fun c h => (white_iff c).2 (hw c (by simp [h]))
    obtain ⟨t1, t2⟩ := takeWhile_digits hdig hw3
    have hhead : ∀ c, (digits ++ w₃).head? = some c → isWhite c = false := by
      cases digits with
      | nil => exact absurd rfl hd
      | cons x xs =>
        intro c hc
        cases hc
        exact digit_not_white (hdig _ (by simp))
    have hall : w₃.all isWhite = true := List.all_eq_true.2 hw3
    have key : ∀ neg, splitSign ((w₁ ++ sign ++ w₂ ++ digits ++ w₃).dropWhile isWhite) =
        (neg, w₂ ++ digits ++ w₃) ∨ (w₂ = [] ∨ True) ∧
        splitSign ((w₁ ++ sign ++ w₂ ++ digits ++ w₃).dropWhile isWhite) = (neg, digits ++ w₃) →
        pyInt (w₁ ++ sign ++ w₂ ++ digits ++ w₃) =
          .ok (if neg then -(Nat.ofDigitChars 10 digits 0 : Int) else Nat.ofDigitChars 10 digits 0) := by
      intro neg hk
      have e2 : (splitSign ((w₁ ++ sign ++ w₂ ++ digits ++ w₃).dropWhile isWhite)).2.dropWhile isWhite =
          digits ++ w₃ := by
        rcases hk with hk | hk
        · rw [hk]
          simp only [List.append_assoc]
          exact dropWhile_white hw2 hhead
        · rw [hk.2]
          exact dropWhile_white (w := []) (by simp) hhead
      have e1 : (splitSign ((w₁ ++ sign ++ w₂ ++ digits ++ w₃).dropWhile isWhite)).1 = neg := by
        rcases hk with hk | hk
        · rw [hk]
        · rw [hk.2]
      unfold pyInt
      simp only [e1, e2, t1, t2]
      rw [if_pos ⟨hd, hall⟩]
    simp only [List.mem_cons, List.not_mem_nil, or_false] at hs
    rcases hs with rfl | rfl | rfl
    · rw [key false (.inr ⟨.inr trivial, ?_⟩)]
      · simp
      · have : (w₁ ++ [] ++ w₂ ++ digits ++ w₃).dropWhile isWhite = digits ++ w₃ := by
          rw [List.append_nil, List.append_assoc]
          exact dropWhile_white (fun c h => (List.mem_append.1 h).elim (hw1 c) (hw2 c)) hhead
        rw [this]
        cases digits with
        | nil => exact absurd rfl hd
        | cons x xs =>
          have hx := hdig x (by simp)
          unfold splitSign
          split
          · next he => cases he; exact absurd hx (by decide)
          · next he => cases he; exact absurd hx (by decide)
          · rfl
    · rw [key false (.inl ?_)]
      · simp
      · have : (w₁ ++ ['+'] ++ w₂ ++ digits ++ w₃).dropWhile isWhite = '+' :: (w₂ ++ digits ++ w₃) := by
          simp only [List.append_assoc, List.cons_append, List.nil_append]
          exact dropWhile_white hw1 (fun c hc => by cases hc; rfl)
        rw [this]; rfl
    · rw [key true (.inl ?_)]
      · simp
      · have : (w₁ ++ ['-'] ++ w₂ ++ digits ++ w₃).dropWhile isWhite = '-' :: (w₂ ++ digits ++ w₃) := by
          simp only [List.append_assoc, List.cons_append, List.nil_append]
          exact dropWhile_white hw1 (fun c hc => by cases hc; rfl)
        rw [this]; rfl

private theorem pyInt_digits {d : List Char} (hd : d ≠ [] ∧ ∀ c ∈ d, c.isDigit = true) :
    pyInt d = .ok (Nat.ofDigitChars 10 d 0) :=
  (pyInt_iff d _).2 ⟨[], [], [], d, [], by simp, by simp, by simp, hd.1, hd.2, by simp⟩

/-- C07: what reading the notation of an accepted channel gives, for all channels: NotImplementedError
without a band or for the RFU coding; otherwise a channel in the low rate class instead of LoRa, and with
the first three digits of the index. -/
theorem C07_reread (c : ChannelID) (h : c.Built) : ChannelID.fromString c.str =
    if c.channelHeader.channelBand = .NOT_IMPL ∨ c.channelHeader.channelCoding = .RFU then
      .error .notImplemented
    else .ok
      { channelHeader :=
          { c.channelHeader with
            channelClass := if c.channelHeader.channelClass = .LORA then .LO_RATE
              else c.channelHeader.channelClass }
        channelIndex := if c.channelIndex < 1000 then c.channelIndex
          else if c.channelIndex < 10000 then c.channelIndex / 10 else c.channelIndex / 100 } := by
  obtain ⟨hd, i⟩ := c
  have hi : 0 ≤ i ∧ i ≤ 0xFFFF := ChannelID.built_iff.1 h
  obtain ⟨n, rfl⟩ := Int.eq_ofNat_of_zero_le hi.1
  by_cases hn : hd.channelBand = .NOT_IMPL
  · rw [if_pos (.inl hn)]
    obtain ⟨a, b, c⟩ := hd
    simp only at hn
    subst hn
    cases a <;> cases b <;> rfl
  · have hl := header_str_length hd hn
    unfold ChannelID.fromString ChannelID.str
    simp only [Int.toNat_natCast]
    rw [List.take_left' hl, List.drop_left' hl]
    have hh : ChannelHeader.fromString hd.str = if hd.channelCoding = .RFU then .error .notImplemented
        else .ok (shown hd) := by
      obtain ⟨a, b, c⟩ := hd
      cases a <;> cases b <;> cases c <;> first | rfl | exact absurd rfl hn
    rw [hh]
    by_cases hr : hd.channelCoding = .RFU
    · rw [if_pos hr, if_pos (.inr hr)]; rfl
    · rw [if_neg hr, if_neg (by simp [hn, hr])]
      have hp : pyInt ((format3 n).take 3) = .ok ((if n < 1000 then n else if n < 10000 then n / 10
          else n / 100 : Nat) : Int) := by
        rw [pyInt_digits, format3_take n (by omega)]
        have := format3_length n
        refine ⟨fun h0 => ?_, ?_⟩
        · have := congrArg List.length h0
          rw [List.length_take, List.length_nil] at this
          omega
        · exact fun c hc => format3_digits n c (List.mem_of_mem_take hc)
      show (do let i ← pyInt ((format3 n).take 3); ChannelID.new (shown hd) i) = _
      rw [hp]
      have e : ((if n < 1000 then n else if n < 10000 then n / 10 else n / 100 : Nat) : Int) =
          if (n : Int) < 1000 then (n : Int) else if (n : Int) < 10000 then (n : Int) / 10
            else (n : Int) / 100 := by
        split_ifs <;> omega
      rw [e]
      have hj : 0 ≤ (if (n : Int) < 1000 then (n : Int) else if (n : Int) < 10000 then (n : Int) / 10
          else (n : Int) / 100) ∧ (if (n : Int) < 1000 then (n : Int) else if (n : Int) < 10000 then
          (n : Int) / 10 else (n : Int) / 100) ≤ 0xFFFF := by split_ifs <;> omega
      generalize (if (n : Int) < 1000 then (n : Int) else if (n : Int) < 10000 then (n : Int) / 10
          else (n : Int) / 100) = j at hj
      show ChannelID.new (shown hd) j = .ok ⟨shown hd, j⟩
      exact validate_of hj

/-- Four digits are cut, and LoRa is written like low rate. -/
example : ChannelID.Built ⟨⟨.PN9, .LORA, .BAND_868⟩, 1234⟩ ∧
    ChannelID.fromString (ChannelID.str ⟨⟨.PN9, .LORA, .BAND_868⟩, 1234⟩) = .ok ⟨⟨.PN9, .LO_RATE, .BAND_868⟩, 123⟩ := by
  decide

/-- C07, restricted to the channels for which it holds. Missing: every other channel
(`C07_survives_iff`); what happens to them is stated in `C07_reread`. -/
theorem C07_round_trip_partial (c : ChannelID) (h : c.Built)
    (h1 : c.channelHeader.channelBand ≠ .NOT_IMPL) (h2 : c.channelHeader.channelCoding ≠ .RFU)
    (h3 : c.channelHeader.channelClass ≠ .LORA) (h4 : c.channelIndex ≤ 999) :
    ChannelID.fromString c.str = .ok c := by
  rw [C07_reread c h, if_neg (by simp [h1, h2]), if_neg h3, if_pos (by omega)]

example : ChannelID.fromString (ChannelID.str ⟨⟨.FEC_PN9, .HI_RATE, .BAND_433⟩, 270⟩) =
    .ok ⟨⟨.FEC_PN9, .HI_RATE, .BAND_433⟩, 270⟩ :=
  C07_round_trip_partial _ (by decide) (by decide) (by decide) (by decide) (by decide)

/-- C07: exactly the channels that survive their notation. -/
theorem C07_survives_iff (c : ChannelID) (h : c.Built) : ChannelID.fromString c.str = .ok c ↔
    c.channelHeader.channelBand ≠ .NOT_IMPL ∧ c.channelHeader.channelCoding ≠ .RFU ∧
    c.channelHeader.channelClass ≠ .LORA ∧ c.channelIndex ≤ 999 := by
  refine ⟨fun hr => ?_, fun ⟨a, b, c', d⟩ => C07_round_trip_partial c h a b c' d⟩
  rw [C07_reread c h] at hr
  split at hr
  · cases hr
  · next hn =>
    simp only [not_or] at hn
    injection hr with hr
    have e1 := congrArg (fun c => c.channelHeader.channelClass) hr
    have e2 := congrArg ChannelID.channelIndex hr
    simp only at e1 e2
    refine ⟨hn.1, hn.2, ?_, ?_⟩
    · intro hc; rw [if_pos hc, hc] at e1; cases e1
    · split_ifs at e2 <;> omega

example : ¬ ChannelID.fromString (ChannelID.str ⟨⟨.FEC_PN9, .HI_RATE, .BAND_433⟩, 1000⟩) =
    .ok ⟨⟨.FEC_PN9, .HI_RATE, .BAND_433⟩, 1000⟩ := by
  rw [C07_survives_iff _ (by decide)]
  decide

/-- C07 is false. -/
theorem C07_refuted : ∃ c : ChannelID, c.Built ∧ ChannelID.fromString c.str ≠ .ok c :=
  ⟨⟨⟨.PN9, .LORA, .BAND_868⟩, 0⟩, by decide, by decide⟩

/-- C07: the notation does not determine the channel: two accepted channels with the same string. -/
theorem C07_ambiguous : ∃ c d : ChannelID, c.Built ∧ d.Built ∧ c ≠ d ∧ c.str = d.str :=
  ⟨⟨⟨.PN9, .LORA, .BAND_868⟩, 0⟩, ⟨⟨.PN9, .LO_RATE, .BAND_868⟩, 0⟩, by decide, by decide, by decide,
    by decide⟩

/-- The eight characters of a channel: band, class letter, coding letter, three-digit index. -/
def notation8 (band : List Char) (cl coding : Char) (digits : List Char) : List Char :=
  band ++ [cl, coding] ++ digits

private theorem ofDigitChars_lt : ∀ (l : List Char), (∀ c ∈ l, c.isDigit = true) → ∀ init,
    Nat.ofDigitChars 10 l init < 10 ^ l.length * (init + 1) := by
  intro l
  induction l with
  | nil => intro _ init; simp
  | cons c l ih =>
    intro hl init
    rw [Nat.ofDigitChars_cons]
    have hc := hl c (by simp)
    have h9 : c.toNat - '0'.toNat ≤ 9 := by
      simp only [Char.isDigit, Bool.and_eq_true, decide_eq_true_eq] at hc
      have := hc.2
      have : c.toNat ≤ 57 := hc.2
      have : '0'.toNat = 48 := rfl
      omega
    refine (ih (fun x hx => hl x (by simp [hx])) _).trans_le ?_
    rw [List.length_cons, Nat.pow_succ, Nat.mul_assoc]
    exact Nat.mul_le_mul_left _ (by omega)

private theorem intText_lt {t : List Char} {i : Int} (h : IntText t i) (hl : t.length ≤ 3) : i < 1000 := by
  obtain ⟨w₁, sign, w₂, digits, w₃, rfl, -, -, -, hdig, rfl⟩ := h
  simp only [List.length_append] at hl
  have h1 := ofDigitChars_lt digits hdig 0
  have h3 : 10 ^ digits.length ≤ 10 ^ 3 := Nat.pow_le_pow_right (by decide) (by omega)
  split <;> omega

private theorem band_iff {s : List Char} {b : ChannelBand} : ChannelBand.fromString s = .ok b ↔
    (s, b) ∈ [(['4', '3', '3'], ChannelBand.BAND_433), (['8', '6', '8'], .BAND_868),
      (['9', '1', '5'], .BAND_915)] := by
  unfold ChannelBand.fromString
  constructor
  · intro h
    split_ifs at h with h1 h2 h3 <;> cases h <;> simp_all
  · intro h
    simp only [List.mem_cons, Prod.mk.injEq, List.not_mem_nil, or_false] at h
    rcases h with ⟨rfl, rfl⟩ | ⟨rfl, rfl⟩ | ⟨rfl, rfl⟩ <;> rfl

private theorem class_iff {c : Char} {k : ChannelClass} : ChannelClass.fromChar c = .ok k ↔
    (c, k) ∈ [('L', ChannelClass.LO_RATE), ('N', .NORMAL_RATE), ('H', .HI_RATE), ('R', .LORA)] := by
  unfold ChannelClass.fromChar
  constructor
  · intro h
    split_ifs at h with h1 h2 h3 <;> cases h <;> simp_all
  · intro h
    simp only [List.mem_cons, Prod.mk.injEq, List.not_mem_nil, or_false] at h
    rcases h with ⟨rfl, rfl⟩ | ⟨rfl, rfl⟩ | ⟨rfl, rfl⟩ | ⟨rfl, rfl⟩ <;> rfl

private theorem coding_iff {c : Char} {m : ChannelCoding} : ChannelCoding.fromChar c = .ok m ↔
    (c, m) ∈ [('P', ChannelCoding.PN9), ('F', .FEC_PN9), ('C', .CW)] := by
  unfold ChannelCoding.fromChar
  constructor
  · intro h
    split_ifs at h with h1 h2 h3 <;> cases h <;> simp_all
  · intro h
    simp only [List.mem_cons, Prod.mk.injEq, List.not_mem_nil, or_false] at h
    rcases h with ⟨rfl, rfl⟩ | ⟨rfl, rfl⟩ | ⟨rfl, rfl⟩ <;> rfl

/-- C07: the strings that are read, and as what, for all strings: a band, a class letter and a coding letter,
then, within the next three characters, what Python 2's `int` accepts, if it is not negative. Anything after
the eighth character is ignored. -/
theorem C07_reads_iff (s : List Char) (c : ChannelID) : ChannelID.fromString s = .ok c ↔
    ∃ band cl co t following, s = notation8 band cl co t ++ following ∧
      (band, c.channelHeader.channelBand) ∈ [(['4', '3', '3'], ChannelBand.BAND_433),
        (['8', '6', '8'], .BAND_868), (['9', '1', '5'], .BAND_915)] ∧
      (cl, c.channelHeader.channelClass) ∈ [('L', ChannelClass.LO_RATE), ('N', .NORMAL_RATE),
        ('H', .HI_RATE), ('R', .LORA)] ∧
      (co, c.channelHeader.channelCoding) ∈ [('P', ChannelCoding.PN9), ('F', .FEC_PN9), ('C', .CW)] ∧
      (t.length = 3 ∨ t.length < 3 ∧ following = []) ∧ IntText t c.channelIndex ∧
      0 ≤ c.channelIndex := by
  constructor
  · intro h
    unfold ChannelID.fromString at h
    cases hh : ChannelHeader.fromString (s.take 5) with
    | error e => rw [hh] at h; cases h
    | ok hd =>
      rw [hh] at h
      cases hi : pyInt ((s.drop 5).take 3) with
      | error e => rw [hi] at h; cases h
      | ok i =>
        rw [hi] at h
        have hn : ChannelID.new hd i = .ok c := h
        obtain ⟨hr, rfl⟩ := validate_eq_ok.1 hn
        unfold ChannelHeader.fromString at hh
        cases hb : ChannelBand.fromString ((s.take 5).take 3) with
        | error e => rw [hb] at hh; cases hh
        | ok b =>
          rw [hb] at hh
          cases hc3 : charAt (s.take 5) 3 with
          | error e => rw [hc3] at hh; cases hh
          | ok x =>
            rw [hc3] at hh
            cases hk : ChannelClass.fromChar x with
            | error e => simp only [bind, Except.bind, hk] at hh; cases hh
            | ok k =>
              cases hc4 : charAt (s.take 5) 4 with
              | error e => simp only [bind, Except.bind, hk, hc4] at hh; cases hh
              | ok y =>
                cases hm : ChannelCoding.fromChar y with
                | error e => simp only [bind, Except.bind, hk, hc4, hm] at hh; cases hh
                | ok m =>
                  simp only [bind, Except.bind, hk, hc4, hm] at hh
                  cases hh
                  refine ⟨(s.take 5).take 3, x, y, (s.drop 5).take 3, s.drop 8, ?_, band_iff.1 hb,
                    class_iff.1 hk, coding_iff.1 hm, ?_, (pyInt_iff _ _).1 hi, hr.1⟩
                  · unfold charAt at hc3 hc4
                    split at hc3
                    · next h3 =>
                      split at hc4
                      · next h4 =>
                        cases hc3; cases hc4
                        have e5 : s.take 5 = (s.take 5).take 3 ++ [x, y] := by
                          have hl : (s.take 5).length ≤ 5 := by rw [List.length_take]; omega
                          generalize s.take 5 = u at h3 h4 hl ⊢
                          match u, h3, h4, hl with
                          | [a, b, c, d, e], h3, h4, _ => simp at h3 h4; simp [h3, h4]
                        unfold notation8
                        rw [← e5, List.append_assoc]
                        have : (s.drop 5).take 3 ++ s.drop 8 = s.drop 5 := by
                          have := List.take_append_drop 3 (s.drop 5)
                          rwa [List.drop_drop] at this
                        rw [this, List.take_append_drop]
                      · cases hc4
                    · cases hc3
                  · rw [List.length_take, List.length_drop, List.drop_eq_nil_iff]
                    omega
  · rintro ⟨band, cl, co, t, following, rfl, hb, hc, hm, hl, hi, h0⟩
    obtain ⟨⟨m, k, b⟩, i⟩ := c
    simp only at hb hc hm hi h0
    have hlen : band.length = 3 := by
      simp only [List.mem_cons, Prod.mk.injEq, List.not_mem_nil, or_false] at hb
      rcases hb with ⟨rfl, -⟩ | ⟨rfl, -⟩ | ⟨rfl, -⟩ <;> rfl
    have h5 : (band ++ [cl, co]).length = 5 := by simp [hlen]
    have ht : (t ++ following).take 3 = t := by
      rcases hl with h | ⟨h, rfl⟩
      · rw [List.take_left' h]
      · rw [List.append_nil, List.take_of_length_le (by omega)]
    unfold ChannelID.fromString notation8
    rw [List.append_assoc, List.take_left' h5, List.drop_left' h5, ht]
    have hh : ChannelHeader.fromString (band ++ [cl, co]) = .ok ⟨m, k, b⟩ := by
      simp only [List.mem_cons, Prod.mk.injEq, List.not_mem_nil, or_false] at hb hc hm
      rcases hb with ⟨rfl, rfl⟩ | ⟨rfl, rfl⟩ | ⟨rfl, rfl⟩ <;>
      rcases hc with ⟨rfl, rfl⟩ | ⟨rfl, rfl⟩ | ⟨rfl, rfl⟩ | ⟨rfl, rfl⟩ <;>
      rcases hm with ⟨rfl, rfl⟩ | ⟨rfl, rfl⟩ | ⟨rfl, rfl⟩ <;> rfl
    rw [hh]
    show (do let i ← pyInt t; ChannelID.new ⟨m, k, b⟩ i) = _
    rw [(pyInt_iff _ _).2 hi]
    have := intText_lt hi (by omega)
    exact validate_of ⟨h0, by omega⟩

/-- A blank, a sign and a digit. -/
example : ChannelID.fromString ['9', '1', '5', 'N', 'F', ' ', '+', '7'] = .ok ⟨⟨.FEC_PN9, .NORMAL_RATE, .BAND_915⟩, 7⟩ := by
  decide

/-- C07: the strings of the notation: band, class letter, coding letter and up to three digits; anything after
the eighth character is ignored. -/
theorem C07_reads (band : List Char) (b : ChannelBand)
    (hb : (band, b) ∈ [(['4', '3', '3'], ChannelBand.BAND_433), (['8', '6', '8'], .BAND_868),
      (['9', '1', '5'], .BAND_915)])
    (cl : Char) (k : ChannelClass)
    (hc : (cl, k) ∈ [('L', ChannelClass.LO_RATE), ('N', .NORMAL_RATE), ('H', .HI_RATE), ('R', .LORA)])
    (co : Char) (m : ChannelCoding)
    (hm : (co, m) ∈ [('P', ChannelCoding.PN9), ('F', .FEC_PN9), ('C', .CW)])
    (digits following : List Char) (hd : digits ≠ [] ∧ ∀ c ∈ digits, c.isDigit = true)
    (hl : digits.length = 3 ∨ digits.length < 3 ∧ following = []) :
    ChannelID.fromString (notation8 band cl co digits ++ following) =
      .ok ⟨⟨m, k, b⟩, Nat.ofDigitChars 10 digits 0⟩ :=
  (C07_reads_iff _ _).2 ⟨band, cl, co, digits, following, rfl, hb, hc, hm, hl,
    ⟨[], [], [], digits, [], by simp, by simp, by simp, hd.1, hd.2, by simp⟩, Int.natCast_nonneg _⟩

example : ChannelID.fromString ['8', '6', '8', 'R', 'P', '-', ' ', '0', 'x'] =
    .ok ⟨⟨.PN9, .LORA, .BAND_868⟩, 0⟩ := by decide

example : ChannelID.Built ⟨⟨.FEC_PN9, .HI_RATE, .BAND_433⟩, 270⟩ ∧
    ChannelID.str ⟨⟨.FEC_PN9, .HI_RATE, .BAND_433⟩, 270⟩ = ['4', '3', '3', 'H', 'F', '2', '7', '0'] := by
  decide

end Verif
