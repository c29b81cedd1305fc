import Verif.Lemmas.Crc
import Verif.Lemmas.Basic

/-! A payload followed by its CRC, as one word. -/

namespace Verif.Crc

/-- The register is empty after a payload and its CRC. -/
theorem top_bytes (r : BitVec 16) :
    top (bytesToBits [UInt8.ofNat ((r.toNat >>> 8) &&& 0xff), UInt8.ofNat (r.toNat &&& 0xff)]) = r := by
  have k : ∀ n : Nat, n &&& 255 = n % 2 ^ 8 := fun n => Nat.and_two_pow_sub_one_eq_mod n 8
  have t : ∀ n i : Nat, i < 8 → (UInt8.ofNat (n &&& 0xff)).toNat.testBit i = n.testBit i := by
    intro n i hi
    rw [UInt8.toNat_ofNat', k, show 2 ^ 8 = 2 ^ 8 from rfl, Nat.mod_mod, Nat.testBit_mod_two_pow]
    simp [hi]
  apply BitVec.eq_of_getLsbD_eq
  intro i hi
  have e := top_get (bytesToBits [UInt8.ofNat ((r.toNat >>> 8) &&& 0xff), UInt8.ofNat (r.toNat &&& 0xff)]) (15 - i)
    (by omega)
  rw [show 15 - (15 - i) = i by omega, dif_pos (by simp; omega)] at e
  rw [e]
  have l : bytesToBits [UInt8.ofNat ((r.toNat >>> 8) &&& 0xff), UInt8.ofNat (r.toNat &&& 0xff)] =
      bitsOf 8 (UInt8.ofNat ((r.toNat >>> 8) &&& 0xff)).toNat ++ bitsOf 8 (UInt8.ofNat (r.toNat &&& 0xff)).toNat := by
    simp [bytesToBits]
  have g : ∀ (w n j : Nat) (h : j < w), (bitsOf w n)[j]'(by simpa using h) = n.testBit (w - 1 - j) := by
    intro w
    induction w with
    | zero => intro n j h; omega
    | succ w ih =>
      intro n j h
      cases j with
      | zero => simp [bitsOf]
      | succ j =>
        simp only [bitsOf, List.getElem_cons_succ]
        rw [ih n j (by omega)]
        congr 1
        omega
  simp only [l]
  rw [BitVec.getLsbD, List.getElem_append]
  split
  · next h =>
    simp only [bitsOf_length] at h
    rw [g _ _ _ h, t _ _ (by omega), Nat.testBit_shiftRight]
    congr 1
    omega
  · next h =>
    simp only [bitsOf_length] at h
    simp only [bitsOf_length]
    rw [g _ _ _ (by omega), t _ _ (by omega)]
    congr 1
    omega

theorem bits_zero (n : Nat) : bits 0#16 (List.replicate n false) = 0#16 := by
  induction n with
  | zero => rfl
  | succ n ih =>
    show bits (stepBit 0#16 false) (List.replicate n false) = 0#16
    rw [show stepBit 0#16 false = 0#16 by decide, ih]

theorem word_zero (p : List UInt8) :
    bits 0xFFFF#16 (bytesToBits p ++ bytesToBits [(calculateCrc p).1, (calculateCrc p).2]) = 0#16 := by
  rw [bits_append, bits_top _ _ (by simp)]
  show bits (crc16 p ^^^ top (bytesToBits [UInt8.ofNat (((crc16 p).toNat >>> 8) &&& 0xff),
    UInt8.ofNat ((crc16 p).toNat &&& 0xff)])) _ = 0#16
  rw [top_bytes, BitVec.xor_self, bits_zero]

theorem noReturn_2056 : noReturn 2056 0x1021#16 = true := by decide +kernel

/-- Two flipped bits less than 2056 positions apart. -/
theorem bits_two' (r : BitVec 16) (x y : Bool) (l : List Bool) (hl : l.length < 2056) :
    bits r (x :: l ++ [y]) ≠ bits r ((!x) :: l ++ [!y]) := by
  rw [bits_append, bits_append]
  show stepBit (bits (stepBit r x) l) y ≠ stepBit (bits (stepBit r !x) l) (!y)
  rw [stepBit_not r x, bits_xor, stepBit_not]
  have h1 := stepBit_xor (bits (stepBit r x) l) (bits 0x1021#16 (List.replicate l.length false)) y
    false
  rw [Bool.xor_false] at h1
  rw [h1]
  intro h
  apply noReturn_spec 2056 _ noReturn_2056 l.length hl
  have h2 := congrArg (stepBit (bits (stepBit r x) l) y ^^^ ·) h
  simp only [← BitVec.xor_assoc, BitVec.xor_self, BitVec.zero_xor] at h2
  have h3 := congrArg (· ^^^ 0x1021#16) h2
  simp only [BitVec.xor_assoc, BitVec.xor_self, BitVec.xor_zero, BitVec.zero_xor] at h3
  exact h3.symm

/-- In how many places two bit strings differ. -/
def diff (l m : List Bool) : Nat := (List.zipWith (· ^^ ·) l m).count true

theorem diff_cons (a b : Bool) (l m : List Bool) : diff (a :: l) (b :: m) = diff l m + if a = b then 0 else 1 := by
  unfold diff
  rw [List.zipWith_cons_cons, List.count_cons]
  cases a <;> cases b <;> simp

theorem diff_append {l m l' m' : List Bool} (h : l.length = m.length) : diff (l ++ l') (m ++ m') = diff l m + diff l' m' := by
  unfold diff
  rw [List.zipWith_append h, List.count_append]

theorem diff_self (l : List Bool) : diff l l = 0 := by
  induction l with
  | nil => rfl
  | cons a l ih => rw [diff_cons, ih]; simp

theorem diff_zero : ∀ {l m : List Bool}, l.length = m.length → diff l m = 0 → l = m := by
  intro l
  induction l with
  | nil => intro m h _; cases m with
    | nil => rfl
    | cons b m => cases h
  | cons a l ih =>
    intro m h h0
    cases m with
    | nil => cases h
    | cons b m =>
      rw [diff_cons] at h0
      by_cases hab : a = b
      · rw [if_pos hab] at h0; rw [hab, ih (by simpa using h) (by omega)]
      · rw [if_neg hab] at h0; omega

theorem diff_one : ∀ {l m : List Bool}, l.length = m.length → diff l m = 1 →
    ∃ u x v, l = u ++ x :: v ∧ m = u ++ (!x) :: v := by
  intro l
  induction l with
  | nil => intro m _ h0; simp [diff] at h0
  | cons a l ih =>
    intro m h h0
    cases m with
    | nil => cases h
    | cons b m =>
      have hl : l.length = m.length := by simpa using h
      rw [diff_cons] at h0
      by_cases hab : a = b
      · rw [if_pos hab] at h0
        obtain ⟨u, x, v, h1, h2⟩ := ih hl (by omega)
        exact ⟨a :: u, x, v, by rw [h1]; rfl, by rw [h2, hab]; rfl⟩
      · rw [if_neg hab] at h0
        have := diff_zero hl (by omega)
        have hb : b = !a := by cases a <;> cases b <;> simp_all
        exact ⟨[], a, l, rfl, by rw [hb, this]; rfl⟩

theorem diff_two : ∀ {l m : List Bool}, l.length = m.length → diff l m = 2 →
    ∃ u x v y w, l = u ++ (x :: v ++ [y] ++ w) ∧ m = u ++ ((!x) :: v ++ [!y] ++ w) := by
  intro l
  induction l with
  | nil => intro m _ h0; simp [diff] at h0
  | cons a l ih =>
    intro m h h0
    cases m with
    | nil => cases h
    | cons b m =>
      have hl : l.length = m.length := by simpa using h
      rw [diff_cons] at h0
      by_cases hab : a = b
      · rw [if_pos hab] at h0
        obtain ⟨u, x, v, y, w, h1, h2⟩ := ih hl (by omega)
        exact ⟨a :: u, x, v, y, w, by rw [h1]; rfl, by rw [h2, hab]; rfl⟩
      · rw [if_neg hab] at h0
        obtain ⟨v, y, w, h1, h2⟩ := diff_one hl (by omega)
        have hb : b = !a := by cases a <;> cases b <;> simp_all
        exact ⟨[], a, v, y, w, by rw [h1]; simp, by rw [h2, hb]; simp⟩

/-- Two flipped bits, or an odd number of them. -/
theorem bits_flips (r : BitVec 16) {l m : List Bool} (hl : l.length = m.length) (hn : l.length ≤ 2056)
    (hd : diff l m = 2 ∨ diff l m % 2 = 1) : bits r l ≠ bits r m := by
  rcases hd with hd | hd
  · obtain ⟨u, x, v, y, w, rfl, rfl⟩ := diff_two hl hd
    intro e
    rw [bits_append r u, bits_append r u, bits_append _ (x :: v ++ [y]), bits_append _ ((!x) :: v ++ [!y])] at e
    refine bits_two' _ x y v ?_ (bits_inj _ e)
    simp at hn
    omega
  · intro e
    have e := congrArg parity e
    rw [parity_bits, parity_bits] at e
    have h := parity_diff l m hl
    unfold diff at hd
    rw [hd, decide_eq_true rfl] at h
    revert e h
    cases parity r <;> cases l.foldl (· ^^ ·) false <;> cases m.foldl (· ^^ ·) false <;> simp

/-- A payload and a CRC of which one, two or an odd number of bits are flipped do not fit together. -/
theorem crc_flips {p q : List UInt8} {c : UInt8 × UInt8} (hp : p.length ≤ 255) (hq : q.length = p.length)
    (hd : let n := diff (bytesToBits [(calculateCrc p).1, (calculateCrc p).2]) (bytesToBits [c.1, c.2]) +
      diff (bytesToBits p) (bytesToBits q)
      n = 2 ∨ n % 2 = 1) : calculateCrc q ≠ c := by
  intro e
  have h1 := word_zero p
  have h2 := word_zero q
  rw [e] at h2
  refine bits_flips 0xFFFF#16 ?_ ?_ ?_ (h1.trans h2.symm)
  · simp [hq]
  · simp; omega
  · rw [diff_append (by simp [hq]), Nat.add_comm]
    exact hd

/-! Flipped bits as a difference. -/

theorem bitsOf_xor (w a b : Nat) : bitsOf w (a ^^^ b) = List.zipWith (· ^^ ·) (bitsOf w a) (bitsOf w b) := by
  induction w with
  | zero => rfl
  | succ w ih => simp [bitsOf, ih, Nat.testBit_xor]

theorem bytes_xor : ∀ {x y : List UInt8}, x.length = y.length →
    bytesToBits (List.zipWith (· ^^^ ·) x y) = List.zipWith (· ^^ ·) (bytesToBits x) (bytesToBits y) := by
  intro x
  induction x with
  | nil => intro y _; simp [bytesToBits]
  | cons a x ih =>
    intro y h
    cases y with
    | nil => cases h
    | cons b y =>
      have := ih (y := y) (by simpa using h)
      unfold bytesToBits at this ⊢
      rw [List.zipWith_cons_cons, List.flatMap_cons, List.flatMap_cons, List.flatMap_cons,
        List.zipWith_append (by simp), this, UInt8.toNat_xor, bitsOf_xor]

theorem bits_both : ∀ {l m : List Bool}, l.length = m.length → ∀ r d : BitVec 16,
    bits (r ^^^ d) (List.zipWith (· ^^ ·) l m) = bits r l ^^^ bits d m := by
  intro l
  induction l with
  | nil => intro m h r d; cases m with
    | nil => rfl
    | cons b m => cases h
  | cons a l ih =>
    intro m h r d
    cases m with
    | nil => cases h
    | cons b m =>
      show bits (stepBit (r ^^^ d) (a ^^ b)) _ = bits (stepBit r a) l ^^^ bits (stepBit d b) m
      rw [stepBit_xor]
      exact ih (by simpa using h) _ _

theorem diff_xor : ∀ {l m : List Bool}, l.length = m.length → diff l (List.zipWith (· ^^ ·) l m) = m.count true := by
  intro l
  induction l with
  | nil => intro m h; cases m with
    | nil => rfl
    | cons b m => cases h
  | cons a l ih =>
    intro m h
    cases m with
    | nil => cases h
    | cons b m =>
      rw [List.zipWith_cons_cons, diff_cons, ih (by simpa using h), List.count_cons]
      cases a <;> cases b <;> rfl

/-- A difference that leaves the register empty is not seen. -/
theorem crc_unseen (u v x y : List UInt8) (h : x.length = y.length) (h0 : bits 0#16 (bytesToBits y) = 0#16) :
    calculateCrc (u ++ List.zipWith (· ^^^ ·) x y ++ v) = calculateCrc (u ++ x ++ v) := by
  have : crc16 (u ++ List.zipWith (· ^^^ ·) x y ++ v) = crc16 (u ++ x ++ v) := by
    unfold crc16
    simp only [bytesToBits_append, bits_append]
    congr 1
    have := bits_both (l := bytesToBits x) (m := bytesToBits y) (by simp [h]) (bits 0xFFFF#16 (bytesToBits u)) 0#16
    rw [BitVec.xor_zero] at this
    rw [bytes_xor h, this, h0, BitVec.xor_zero]
  unfold calculateCrc
  rw [this]

end Verif.Crc
