import Verif.Model.Crc
import Verif.Lemmas.Basic

/-! The CRC register. -/

namespace Verif.Crc

theorem stepBit_eq (r : BitVec 16) (b : Bool) :
    stepBit r b = (r <<< 1) ^^^ (if (r.msb ^^ b) then 0x1021#16 else 0#16) := by
  unfold stepBit
  split <;> simp

theorem stepBit_lsb (r : BitVec 16) (b : Bool) : (stepBit r b).getLsbD 0 = (r.msb ^^ b) := by
  rw [stepBit_eq, BitVec.getLsbD_xor, BitVec.getLsbD_shiftLeft]
  have h : ∀ x : Bool, (if x then 0x1021#16 else 0#16).getLsbD 0 = x := by decide
  rw [h]
  simp

theorem stepBit_inj {r r' : BitVec 16} {b : Bool} (h : stepBit r b = stepBit r' b) : r = r' := by
  have h0 : (r.msb ^^ b) = (r'.msb ^^ b) := by rw [← stepBit_lsb, ← stepBit_lsb, h]
  have hm : r.msb = r'.msb := by
    revert h0; cases r.msb <;> cases r'.msb <;> cases b <;> decide
  have hs : r <<< 1 = r' <<< 1 := by
    rw [stepBit_eq, stepBit_eq, h0] at h
    have := congrArg (· ^^^ (if (r'.msb ^^ b) then 0x1021#16 else 0#16)) h
    simpa [BitVec.xor_assoc] using this
  apply BitVec.eq_of_getLsbD_eq
  intro i hi
  rcases Nat.lt_or_ge i 15 with h15 | h15
  · have := congrArg (fun x => x.getLsbD (i + 1)) hs
    simp only [BitVec.getLsbD_shiftLeft] at this
    simpa [h15, show i + 1 < 16 by omega] using this
  · have : i = 15 := by omega
    subst this
    simpa [BitVec.msb_eq_getLsbD_last] using hm

theorem bits_append (r : BitVec 16) (l m : List Bool) : bits r (l ++ m) = bits (bits r l) m := by
  simp [bits]

theorem bits_inj {r r' : BitVec 16} (l : List Bool) (h : bits r l = bits r' l) : r = r' := by
  induction l generalizing r r' with
  | nil => exact h
  | cons b l ih => exact stepBit_inj (ih h)

/-- A bit string placed at the top of a register. -/
def top : List Bool → BitVec 16
  | [] => 0#16
  | b :: l => (if b then 0x8000#16 else 0#16) ^^^ (top l >>> 1)

theorem top_get (l : List Bool) : ∀ i, i < 16 →
    (top l).getLsbD (15 - i) = (if h : i < l.length then l[i] else false) := by
  induction l with
  | nil => intro i hi; simp [top]
  | cons b l ih =>
    intro i hi
    unfold top
    rw [BitVec.getLsbD_xor, BitVec.getLsbD_ushiftRight]
    cases i with
    | zero =>
      have : (top l).getLsbD (1 + (15 - 0)) = false := BitVec.getLsbD_of_ge _ _ (by omega)
      rw [this]
      cases b <;> simp
    | succ i =>
      have e : 1 + (15 - (i + 1)) = 15 - i := by omega
      rw [e, ih i (by omega)]
      have : (if b then 0x8000#16 else 0#16).getLsbD (15 - (i + 1)) = false := by
        cases b
        · simp
        · have h : ∀ j : Fin 15, (0x8000#16).getLsbD j = false := by decide
          exact h ⟨15 - (i + 1), by omega⟩
      rw [this]
      simp

theorem top_inj {l m : List Bool} (hl : l.length = m.length) (h16 : l.length ≤ 16)
    (h : top l = top m) : l = m := by
  apply List.ext_getElem hl
  intro i h1 h2
  have e1 := top_get l i (by omega)
  have e2 := top_get m i (by omega)
  rw [h, e2] at e1
  simpa [h1, h2] using e1.symm

theorem stepBit_top (r : BitVec 16) (b : Bool) (l : List Bool) (hl : l.length ≤ 15) :
    stepBit (r ^^^ top (b :: l)) false = stepBit r b ^^^ top l := by
  have hlow : (top l).getLsbD 0 = false := by
    have := top_get l 15 (by omega)
    rw [dif_neg (by omega)] at this
    exact this
  have hmsb : (r ^^^ top (b :: l)).msb = (r.msb ^^ b) := by
    rw [BitVec.msb_xor]
    congr 1
    have := top_get (b :: l) 0 (by omega)
    rw [BitVec.msb_eq_getLsbD_last]
    simpa using this
  have hsh : (r ^^^ top (b :: l)) <<< 1 = (r <<< 1) ^^^ top l := by
    apply BitVec.eq_of_getLsbD_eq
    intro i hi
    rw [BitVec.getLsbD_xor, BitVec.getLsbD_shiftLeft, BitVec.getLsbD_shiftLeft,
      BitVec.getLsbD_xor]
    cases i with
    | zero => rw [hlow]; simp
    | succ i =>
      have e1 := top_get (b :: l) (15 - i) (by omega)
      have e2 := top_get l (14 - i) (by omega)
      have h1 : 15 - (15 - i) = i := by omega
      have h2 : 15 - (14 - i) = i + 1 := by omega
      rw [h1] at e1
      rw [h2] at e2
      have h3 : 15 - i = (14 - i) + 1 := by omega
      simp only [Nat.add_sub_cancel, e1, e2]
      simp only [h3, List.length_cons, Nat.add_lt_add_iff_right, List.getElem_cons_succ]
      have : ¬ (i + 1 < 1) := by omega
      simp [hi]
  rw [stepBit_eq, stepBit_eq, hmsb, hsh, Bool.xor_false]
  rw [BitVec.xor_assoc, BitVec.xor_assoc, BitVec.xor_comm (top l)]

theorem bits_top (l : List Bool) : ∀ (r : BitVec 16), l.length ≤ 16 →
    bits r l = bits (r ^^^ top l) (List.replicate l.length false) := by
  induction l with
  | nil => intro r _; simp [bits, top]
  | cons b l ih =>
    intro r hl
    simp only [List.length_cons] at hl
    show bits (stepBit r b) l = bits (stepBit (r ^^^ top (b :: l)) false) _
    rw [ih _ (by omega), stepBit_top _ _ _ (by omega)]

/-- Two different bit strings of equal length, at most 16, lead to different registers. -/
theorem bits_burst (r : BitVec 16) {l m : List Bool} (hl : l.length = m.length)
    (h16 : l.length ≤ 16) (h : bits r l = bits r m) : l = m := by
  rw [bits_top l r h16, bits_top m r (by omega), hl] at h
  have := bits_inj _ h
  have h2 := congrArg (r ^^^ ·) this
  simp only [← BitVec.xor_assoc, BitVec.xor_self, BitVec.zero_xor] at h2
  exact top_inj hl h16 h2

theorem calculateCrc_inj {a b : List UInt8} (h : calculateCrc a = calculateCrc b) :
    crc16 a = crc16 b := by
  unfold calculateCrc at h
  rw [Prod.ext_iff] at h
  obtain ⟨h1, h2⟩ := h
  have e1 := congrArg UInt8.toNat h1
  have e2 := congrArg UInt8.toNat h2
  simp only [UInt8.toNat_ofNat', Nat.shiftRight_eq_div_pow] at e1 e2
  have k : ∀ n : Nat, n &&& 255 = n % 256 := fun n => Nat.and_two_pow_sub_one_eq_mod n 8
  rw [k, k] at e1 e2
  apply BitVec.eq_of_toNat_eq
  have l1 := (crc16 a).isLt
  have l2 := (crc16 b).isLt
  omega

end Verif.Crc

/-! Linearity and parity. -/

namespace Verif.Crc

theorem stepBit_xor (r d : BitVec 16) (b c : Bool) :
    stepBit (r ^^^ d) (b ^^ c) = stepBit r b ^^^ stepBit d c := by
  rw [stepBit_eq, stepBit_eq, stepBit_eq, BitVec.msb_xor, BitVec.shiftLeft_xor_distrib]
  have h : ∀ x y z w : Bool, (if ((x ^^ y) ^^ (z ^^ w)) then 0x1021#16 else 0#16) =
      (if (x ^^ z) then 0x1021#16 else 0#16) ^^^ (if (y ^^ w) then 0x1021#16 else 0#16) := by decide
  rw [h]
  simp only [BitVec.xor_assoc]
  congr 1
  rw [← BitVec.xor_assoc, ← BitVec.xor_assoc, BitVec.xor_comm (d <<< 1)]

theorem bits_xor (l : List Bool) : ∀ r d : BitVec 16,
    bits (r ^^^ d) l = bits r l ^^^ bits d (List.replicate l.length false) := by
  induction l with
  | nil => intro r d; rfl
  | cons b l ih =>
    intro r d
    have := stepBit_xor r d b false
    rw [Bool.xor_false] at this
    show bits (stepBit (r ^^^ d) b) l = bits (stepBit r b) l ^^^ bits (stepBit d false) _
    rw [this, ih]

theorem stepBit_not (r : BitVec 16) (b : Bool) : stepBit r (!b) = stepBit r b ^^^ 0x1021#16 := by
  have := stepBit_xor r 0 b true
  rw [Bool.xor_true] at this
  simpa [stepBit] using this

/-- `0x1021` moved on by k steps never comes back to itself within the next n steps. -/
def noReturn : Nat → BitVec 16 → Bool
  | 0, _ => true
  | n + 1, r => (stepBit r false != 0x1021#16) && noReturn n (stepBit r false)

theorem noReturn_spec (n : Nat) : ∀ r, noReturn n r = true → ∀ k, k < n →
    stepBit (bits r (List.replicate k false)) false ≠ 0x1021#16 := by
  induction n with
  | zero => intro r _ k hk; omega
  | succ n ih =>
    intro r h k hk
    simp only [noReturn, Bool.and_eq_true, bne_iff_ne] at h
    cases k with
    | zero => exact h.1
    | succ k => exact ih _ h.2 k (by omega)

theorem noReturn_2040 : noReturn 2040 0x1021#16 = true := by decide +kernel

/-- Two flipped bits less than 2040 positions apart are detected. -/
theorem bits_two (r : BitVec 16) (x y : Bool) (l : List Bool) (hl : l.length < 2040) :
    bits r (x :: l ++ [y]) ≠ bits r ((!x) :: l ++ [!y]) := by
  rw [bits_append, bits_append]
  show stepBit (bits (stepBit r x) l) y ≠ stepBit (bits (stepBit r !x) l) (!y)
  rw [stepBit_not r x, bits_xor, stepBit_not]
  have h1 := stepBit_xor (bits (stepBit r x) l) (bits 0x1021#16 (List.replicate l.length false)) y
    false
  rw [Bool.xor_false] at h1
  rw [h1]
  intro h
  apply noReturn_spec 2040 _ noReturn_2040 l.length hl
  have h2 := congrArg (stepBit (bits (stepBit r x) l) y ^^^ ·) h
  simp only [← BitVec.xor_assoc, BitVec.xor_self, BitVec.zero_xor] at h2
  have h3 := congrArg (· ^^^ 0x1021#16) h2
  simp only [BitVec.xor_assoc, BitVec.xor_self, BitVec.xor_zero, BitVec.zero_xor] at h3
  exact h3.symm

/-- The parity of the register. -/
def parity (r : BitVec 16) : Bool := (List.range 16).foldl (fun a i => a ^^ r.getLsbD i) false

theorem parity_xor (r d : BitVec 16) : parity (r ^^^ d) = (parity r ^^ parity d) := by
  have h : ∀ (l : List Nat) (a b : Bool),
      l.foldl (fun a i => a ^^ (r ^^^ d).getLsbD i) (a ^^ b) =
      (l.foldl (fun a i => a ^^ r.getLsbD i) a ^^ l.foldl (fun a i => a ^^ d.getLsbD i) b) := by
    intro l
    induction l with
    | nil => intro a b; rfl
    | cons i l ih =>
      intro a b
      simp only [List.foldl_cons]
      rw [← ih]
      congr 1
      rw [BitVec.getLsbD_xor]
      cases a <;> cases b <;> cases r.getLsbD i <;> cases d.getLsbD i <;> rfl
  exact h _ false false

theorem parity_shl (r : BitVec 16) : parity (r <<< 1) = (parity r ^^ r.msb) := by
  unfold parity
  have e : List.range 16 = [0, 1, 2, 3, 4, 5, 6, 7, 8, 9, 10, 11, 12, 13, 14, 15] := rfl
  rw [e, BitVec.msb_eq_getLsbD_last]
  simp only [List.foldl_cons, List.foldl_nil, BitVec.getLsbD_shiftLeft]
  simp only [Nat.reduceLT, Nat.reduceSub, decide_true, decide_false, Bool.not_true, Bool.not_false,
    Bool.and_true, Bool.true_and, Bool.false_and, Bool.and_false, Bool.false_xor]
  rw [Bool.xor_assoc _ (r.getLsbD 15) (r.getLsbD 15), Bool.xor_self, Bool.xor_false]

theorem parity_stepBit (r : BitVec 16) (b : Bool) : parity (stepBit r b) = (parity r ^^ b) := by
  rw [stepBit_eq, parity_xor, parity_shl]
  have h : ∀ x : Bool, parity (if x then 0x1021#16 else 0#16) = x := by decide
  rw [h, Bool.xor_assoc]
  congr 1
  rw [← Bool.xor_assoc, Bool.xor_self, Bool.false_xor]

theorem parity_bits (l : List Bool) : ∀ r, parity (bits r l) = (parity r ^^ l.foldl (· ^^ ·) false) := by
  have hf : ∀ (l : List Bool) (a : Bool), l.foldl (· ^^ ·) a = (a ^^ l.foldl (· ^^ ·) false) := by
    intro l
    induction l with
    | nil => intro a; simp
    | cons b l ih =>
      intro a
      simp only [List.foldl_cons]
      rw [ih, ih (false ^^ b), Bool.false_xor, Bool.xor_assoc]
  induction l with
  | nil => intro r; simp [bits]
  | cons b l ih =>
    intro r
    show parity (bits (stepBit r b) l) = _
    rw [ih, parity_stepBit, List.foldl_cons, hf l (false ^^ b), Bool.false_xor, Bool.xor_assoc]

theorem parity_diff (l : List Bool) : ∀ m : List Bool, l.length = m.length →
    (l.foldl (· ^^ ·) false ^^ m.foldl (· ^^ ·) false) =
      decide ((List.zipWith (· ^^ ·) l m).count true % 2 = 1) := by
  have hf : ∀ (l : List Bool) (a : Bool), l.foldl (· ^^ ·) a = (a ^^ l.foldl (· ^^ ·) false) := by
    intro l
    induction l with
    | nil => intro a; simp
    | cons b l ih =>
      intro a
      simp only [List.foldl_cons]
      rw [ih, ih (false ^^ b), Bool.false_xor, Bool.xor_assoc]
  induction l with
  | nil => intro m hm; cases m <;> simp_all
  | cons a l ih =>
    intro m hm
    cases m with
    | nil => simp at hm
    | cons b m =>
      have := ih m (by simpa using hm)
      simp only [List.foldl_cons, Bool.false_xor]
      rw [hf l a, hf m b, List.zipWith_cons_cons, List.count_cons]
      have e : (a ^^ l.foldl (· ^^ ·) false ^^ (b ^^ m.foldl (· ^^ ·) false)) =
          ((a ^^ b) ^^ (l.foldl (· ^^ ·) false ^^ m.foldl (· ^^ ·) false)) := by
        cases a <;> cases b <;> simp
      rw [e, this]
      cases hab : (a ^^ b)
      · simp
      · simp only [beq_self_eq_true, if_true, Bool.true_xor]
        rw [← decide_not]
        congr 1
        apply propext
        omega

end Verif.Crc
