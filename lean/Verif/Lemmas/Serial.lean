import Verif.Model.Serial
import Verif.Lemmas.ParseSegs

/-! What the serial parser does with its buffer. -/

namespace Verif

theorem uint8_cons (pos : Nat) (x : UInt8) (bs : List UInt8) :
    P.uint 8 ⟨pos, bytesToBits (x :: bs)⟩ = .ok (x.toNat : Int) ⟨pos + 8, bytesToBits bs⟩ := by
  have h := Reads.uint 8 x.toNat (by have := x.toNat_lt; omega) pos (bytesToBits bs)
  rw [bytesToBits_cons, h]
  simp

theorem uint8_nil (pos : Nat) :
    P.uint 8 ⟨pos, bytesToBits []⟩ = .err .readError ⟨pos, []⟩ := rfl

theorem bytes_take (n pos : Nat) (bs : List UInt8) (h : n ≤ bs.length) :
    P.bytes n ⟨pos, bytesToBits bs⟩ = .ok (bs.take n) ⟨pos + 8 * n, bytesToBits (bs.drop n)⟩ := by
  rw [P.bytes_ok]
  refine ⟨by simp [h], ?_, rfl⟩
  rw [← bytesToBits_append, List.take_append_drop]

theorem bytes_short (n pos : Nat) (bs : List UInt8) (h : bs.length < n) :
    P.bytes n ⟨pos, bytesToBits bs⟩ = .err .readError ⟨pos, bytesToBits bs⟩ := by
  unfold P.bytes
  rw [P.bind_apply]
  unfold P.takeBits
  simp only [bytesToBits_length]
  rw [if_neg (by omega)]

namespace Serial

/-- What the header check makes of a buffer. -/
inductive View
  | short
  | nosync (pos : Nat)
  | crcBad (counter : UInt8)
  | valid (counter type : UInt8) (len : Nat) (rest : List UInt8)
  deriving DecidableEq

/-- What the header check makes of a buffer. -/
def view (b : List UInt8) : View :=
  match b with
  | [] => .short
  | x :: b1 => if x ≠ 0xC0 then .nosync 8 else
    match b1 with
    | [] => .short
    | v :: b2 => if v ≠ 0 then .nosync 16 else
      match b2 with
      | c :: t :: l :: k1 :: k2 :: rest =>
        if rest.length < l.toNat then .short
        else if Crc.calculateCrc (rest.take l.toNat) = (k1, k2) then .valid c t l.toNat rest
        else .crcBad c
      | _ => .short

theorem u8_eq_iff (x : UInt8) (n : Nat) (h : n < 256) :
    (x.toNat : Int) = (n : Int) ↔ x = UInt8.ofNat n := by
  constructor
  · intro e
    have e : x.toNat = n := by exact_mod_cast e
    rw [← e]; simp
  · rintro rfl
    simp; omega

theorem headerFields_view (b : List UInt8) :
    match b with
    | [] => ∃ s, headerFields (stream b) = .err .readError s
    | x :: b1 => if x ≠ 0xC0 then ∃ s, s.pos = 8 ∧ headerFields (stream b) = .err .parseError s else
      match b1 with
      | [] => ∃ s, headerFields (stream b) = .err .readError s
      | v :: b2 =>
        if v ≠ 0 then ∃ s, s.pos = 16 ∧ headerFields (stream b) = .err .parseError s else
        match b2 with
        | c :: t :: l :: k1 :: k2 :: rest =>
          headerFields (stream b) = .ok ((c.toNat : Int), (t.toNat : Int), (l.toNat : Int),
            (k1.toNat : Int), (k2.toNat : Int)) ⟨56, bytesToBits rest⟩
        | _ => ∃ s, headerFields (stream b) = .err .readError s := by
  have h192 : ∀ x : UInt8, ((x.toNat : Int) ≠ 192) ↔ x ≠ 0xC0 := by
    intro x
    exact not_congr (u8_eq_iff x 192 (by omega))
  have h0 : ∀ x : UInt8, ((x.toNat : Int) ≠ 0) ↔ x ≠ 0 := by
    intro x
    exact not_congr (u8_eq_iff x 0 (by omega))
  unfold headerFields stream
  match b with
  | [] => exact ⟨_, rfl⟩
  | x :: b1 =>
    simp only [P.bind_apply, uint8_cons, h192]
    by_cases hx : x = 0xC0
    · simp only [hx, ne_eq, not_true_eq_false, if_false]
      match b1 with
      | [] => exact ⟨_, rfl⟩
      | v :: b2 =>
        simp only [P.bind_apply, uint8_cons, h0]
        by_cases hv : v = 0
        · simp only [hv, ne_eq, not_true_eq_false, if_false]
          match b2 with
          | [] => exact ⟨_, rfl⟩
          | [_] => simp only [P.bind_apply, uint8_cons, uint8_nil]; exact ⟨_, rfl⟩
          | [_, _] => simp only [P.bind_apply, uint8_cons, uint8_nil]; exact ⟨_, rfl⟩
          | [_, _, _] => simp only [P.bind_apply, uint8_cons, uint8_nil]; exact ⟨_, rfl⟩
          | [_, _, _, _] => simp only [P.bind_apply, uint8_cons, uint8_nil]; exact ⟨_, rfl⟩
          | c :: t :: l :: k1 :: k2 :: rest =>
            simp only [P.bind_apply, uint8_cons]
            rfl
        · simp only [ne_eq, hv, not_false_eq_true, if_true]
          exact ⟨_, rfl, rfl⟩
    · simp only [ne_eq, hx, not_false_eq_true, if_true]
      exact ⟨_, rfl, rfl⟩

theorem view_cases (b : List UInt8) :
    (view b = .short ∧ ((∃ s, headerFields (stream b) = .err .readError s) ∨
      ∃ c t l k1 k2 rest, b = 0xC0 :: 0 :: c :: t :: l :: k1 :: k2 :: rest ∧
        rest.length < l.toNat)) ∨
    (∃ pos, (∀ x, view (b ++ x) = .nosync pos) ∧
      ∃ s, s.pos = pos ∧ headerFields (stream b) = .err .parseError s) ∨
    (∃ c t l k1 k2 rest, b = 0xC0 :: 0 :: c :: t :: l :: k1 :: k2 :: rest ∧
      ¬ rest.length < l.toNat ∧ ∀ x, view (b ++ x) =
        if Crc.calculateCrc (rest.take l.toNat) = (k1, k2) then .valid c t l.toNat (rest ++ x)
        else .crcBad c) := by
  have hf := headerFields_view b
  match b with
  | [] => exact .inl ⟨rfl, .inl hf⟩
  | x :: b1 =>
    by_cases hx : x = 0xC0
    · subst hx
      simp only [ne_eq, not_true_eq_false, if_false] at hf
      match b1 with
      | [] => exact .inl ⟨rfl, .inl hf⟩
      | v :: b2 =>
        by_cases hv : v = 0
        · subst hv
          simp only [ne_eq, not_true_eq_false, if_false] at hf
          match b2 with
          | [] => exact .inl ⟨rfl, .inl hf⟩
          | [_] => exact .inl ⟨rfl, .inl hf⟩
          | [_, _] => exact .inl ⟨rfl, .inl hf⟩
          | [_, _, _] => exact .inl ⟨rfl, .inl hf⟩
          | [_, _, _, _] => exact .inl ⟨rfl, .inl hf⟩
          | c :: t :: l :: k1 :: k2 :: rest =>
            by_cases hl : rest.length < l.toNat
            · exact .inl ⟨by simp [view, hl], .inr ⟨_, _, _, _, _, _, rfl, hl⟩⟩
            · refine .inr (.inr ⟨_, _, _, _, _, _, rfl, hl, fun x => ?_⟩)
              have ht : (rest ++ x).take l.toNat = rest.take l.toNat :=
                List.take_append_of_le_length (by omega)
              have hl' : ¬ (rest ++ x).length < l.toNat := by
                rw [List.length_append]; omega
              simp only [view, List.cons_append, ne_eq, not_true_eq_false, if_false, ht]
              rw [if_neg hl']
        · simp only [ne_eq, hv, not_false_eq_true, if_true] at hf
          exact .inr (.inl ⟨16, fun x => by simp [view, hv], hf⟩)
    · simp only [ne_eq, hx, not_false_eq_true, if_true] at hf
      exact .inr (.inl ⟨8, fun x => by simp [view, hx], hf⟩)

theorem header_view (p : Parser) :
    match view p.buffer with
    | .short => ∃ s, p.header (stream p.buffer) = (p, .err .readError s)
    | .nosync pos => ∃ s, s.pos = pos ∧ p.header (stream p.buffer) = (p, .err .parseError s)
    | .crcBad c => ∃ s, s.pos = 56 ∧
        p.header (stream p.buffer) = (p.count c.toNat, .err .parseError s)
    | .valid c t l rest => p.header (stream p.buffer) =
        (p.count c.toNat, .ok (l, (t.toNat : Int)) ⟨56, bytesToBits rest⟩) := by
  have full : ∀ c t l k1 k2 rest, p.buffer = 0xC0 :: 0 :: c :: t :: l :: k1 :: k2 :: rest →
      p.header (stream p.buffer) =
        if rest.length < l.toNat then (p, .err .readError ⟨56, bytesToBits rest⟩)
        else if Crc.calculateCrc (rest.take l.toNat) = (k1, k2) then
          (p.count c.toNat, .ok (l.toNat, (t.toNat : Int)) ⟨56, bytesToBits rest⟩)
        else (p.count c.toNat, .err .parseError ⟨56, bytesToBits rest⟩) := by
    intro c t l k1 k2 rest hb
    have hf := headerFields_view p.buffer
    unfold Parser.header
    rw [hb] at hf ⊢
    simp only [ne_eq, not_true_eq_false, if_false] at hf
    simp only [hf]
    have hlen' : (0xC0 :: 0 :: c :: t :: l :: k1 :: k2 :: rest).length = rest.length + 7 := by simp
    rw [hlen']
    by_cases hl : rest.length < l.toNat
    · rw [if_pos hl, if_pos]
      simp only [show (56 / 8 : Nat) = 7 from rfl]
      omega
    · rw [if_neg hl, if_neg (by simp only [show (56 / 8 : Nat) = 7 from rfl]; omega)]
      rw [show ((l.toNat : Int)).toNat = l.toNat by omega]
      rw [bytes_take _ _ _ (by omega)]
      simp only
      have hc : ((Crc.calculateCrc (rest.take l.toNat)).1.toNat : Int) ≠ k1.toNat ∨
          ((Crc.calculateCrc (rest.take l.toNat)).2.toNat : Int) ≠ k2.toNat ↔
          ¬ Crc.calculateCrc (rest.take l.toNat) = (k1, k2) := by
        rw [Prod.ext_iff, not_and_or]
        simp only [ne_eq, Nat.cast_inj, UInt8.toNat_inj]
      by_cases hcrc : Crc.calculateCrc (rest.take l.toNat) = (k1, k2)
      · rw [if_pos hcrc, if_neg (fun h => hc.1 h hcrc)]
      · rw [if_neg hcrc, if_pos (hc.2 hcrc)]
  rcases view_cases p.buffer with ⟨h1, h2⟩ | ⟨pos, h1, s, h2, h3⟩ |
    ⟨c, t, l, k1, k2, rest, h1, h2, h3⟩
  · rw [h1]
    rcases h2 with ⟨s, hs⟩ | ⟨c, t, l, k1, k2, rest, hb, hl⟩
    · refine ⟨s, ?_⟩
      unfold Parser.header
      rw [hs]
    · rw [full _ _ _ _ _ _ hb, if_pos hl]
      exact ⟨_, rfl⟩
  · have := h1 []
    rw [List.append_nil] at this
    rw [this]
    refine ⟨s, h2, ?_⟩
    unfold Parser.header
    rw [h3]
  · have := h3 []
    rw [List.append_nil, List.append_nil] at this
    rw [this, full _ _ _ _ _ _ h1, if_neg h2]
    by_cases hc : Crc.calculateCrc (rest.take l.toNat) = (k1, k2)
    · simp only [if_pos hc]
    · simp only [if_neg hc]
      exact ⟨_, rfl, rfl⟩

theorem view_append (b x : List UInt8) :
    match view b with
    | .short => True
    | .nosync pos => view (b ++ x) = .nosync pos
    | .crcBad c => view (b ++ x) = .crcBad c
    | .valid c t l rest => view (b ++ x) = .valid c t l (rest ++ x) := by
  rcases view_cases b with ⟨h1, h2⟩ | ⟨pos, h1, _⟩ | ⟨c, t, l, k1, k2, rest, h1, h2, h3⟩
  · rw [h1]; trivial
  · have := h1 []
    rw [List.append_nil] at this
    rw [this]
    exact h1 x
  · have := h3 []
    rw [List.append_nil, List.append_nil] at this
    rw [this]
    have hx := h3 x
    by_cases hc : Crc.calculateCrc (rest.take l.toNat) = (k1, k2)
    · simp only [if_pos hc] at hx ⊢; exact hx
    · simp only [if_neg hc] at hx ⊢; exact hx

theorem view_valid {b : List UInt8} {c t : UInt8} {l : Nat} {rest : List UInt8} :
    view b = .valid c t l rest ↔ l < 256 ∧ l ≤ rest.length ∧
      b = [0xC0, 0, c, t, UInt8.ofNat l, (Crc.calculateCrc (rest.take l)).1,
        (Crc.calculateCrc (rest.take l)).2] ++ rest := by
  constructor
  · intro h
    unfold view at h
    match b with
    | [] => cases h
    | y :: b1 =>
      by_cases hy : y = 0xC0
      · simp only [hy, ne_eq, not_true_eq_false, if_false] at h
        match b1 with
        | [] => cases h
        | v :: b2 =>
          by_cases hv : v = 0
          · simp only [hv, ne_eq, not_true_eq_false, if_false] at h
            match b2 with
            | [] | [_] | [_, _] | [_, _, _] | [_, _, _, _] => cases h
            | c' :: t' :: l' :: k1 :: k2 :: rest' =>
              simp only at h
              by_cases hl : rest'.length < l'.toNat
              · simp [hl] at h
              · rw [if_neg hl] at h
                by_cases hc : Crc.calculateCrc (rest'.take l'.toNat) = (k1, k2)
                · rw [if_pos hc] at h
                  injection h with h1 h2 h3 h4
                  subst h1 h2 h3 h4 hy hv
                  have := l'.toNat_lt
                  refine ⟨by omega, by omega, ?_⟩
                  simp [hc]
                · rw [if_neg hc] at h; cases h
          · simp [hv] at h
      · simp [hy] at h
  · rintro ⟨h1, h2, rfl⟩
    have h3 : (UInt8.ofNat l).toNat = l := ofNat_toNat_u8 h1
    simp only [view, List.cons_append, List.nil_append, ne_eq, not_true_eq_false, if_false, h3]
    rw [if_neg (by omega), if_pos trivial]

end Serial
end Verif
