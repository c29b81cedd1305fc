import Mathlib.Tactic.Linarith
import Verif.Lemmas.Codec
import Verif.Lemmas.AlpGood
import Verif.Lemmas.Bridge

/-! C03-C05: compressed time (d7a/types/ct.py). -/

namespace Verif

/-- A time value representable in compressed format: mantissa 0..31 times 4 to the 0..7. -/
def Representable (x : Int) : Prop := ∃ e : Nat, e ≤ 7 ∧ ∃ m : Int, 0 ≤ m ∧ m ≤ 31 ∧ x = 4 ^ e * m

theorem CT.decompress_eq {c : CT} (h : c.Ok) : c.decompress = 4 ^ c.exp.toNat * c.mant := by
  obtain ⟨e, m⟩ := c
  obtain ⟨⟨h1, h2⟩, h3, h4⟩ := h
  simp only at h1 h2 h3 h4
  unfold CT.decompress
  rw [CT.compressedValue_eq]
  simp only
  have e1 : (e * 32 + m) >>ₚ 5 = e := by
    unfold shr
    omega
  have e2 : Int.land (e * 32 + m) 0b11111 = m := by
    obtain ⟨a, ha⟩ := Int.eq_ofNat_of_zero_le (a := e * 32 + m) (by omega)
    rw [ha, show (0b11111 : Int) = ((31 : Nat) : Int) from rfl, land_ofNat,
      show (31 : Nat) = 2 ^ 5 - 1 from rfl, Nat.and_two_pow_sub_one_eq_mod]
    omega
  rw [e1, e2]

/-- The loop of `compress`: the first exponent whose range reaches `v`. -/
theorem CT.compress_cases (v : Int) (ceil : Bool) (h0 : 0 ≤ v) :
    (∃ i : Nat, i ≤ 7 ∧ v ≤ 31 * 4 ^ i ∧ (∀ j < i, 31 * 4 ^ j < v) ∧
      CT.compress v ceil = .ok (some ⟨i, if ceil ∧ v % 4 ^ i ≠ 0 then v / 4 ^ i + 1
        else v / 4 ^ i⟩)) ∨
    (507904 < v ∧ CT.compress v ceil = .ok none) := by
  have hnew : ∀ i : Nat, i ≤ 7 → v ≤ 31 * 4 ^ i →
      (CT.new i (if ceil ∧ v % 4 ^ i ≠ 0 then v.tdiv (4 ^ i) + 1 else v.tdiv (4 ^ i))).map some =
      .ok (some ⟨i, if ceil ∧ v % 4 ^ i ≠ 0 then v / 4 ^ i + 1 else v / 4 ^ i⟩) := by
    intro i hi hv
    rw [Int.tdiv_eq_ediv_of_nonneg h0]
    have hb : (0:Int) ≤ v / 4 ^ i ∧ (if ceil = true ∧ v % 4 ^ i ≠ 0 then v / 4 ^ i + 1
        else v / 4 ^ i) ≤ 31 ∧ 0 ≤ (if ceil = true ∧ v % 4 ^ i ≠ 0 then v / 4 ^ i + 1
        else v / 4 ^ i) := by
      cases ceil <;> interval_cases i <;> simp only [true_and, if_false, Bool.false_eq_true,
        false_and] <;> (try split_ifs) <;> omega
    rw [CT.new, validate_of ⟨⟨by omega, by omega⟩, hb.2.2, hb.2.1⟩]
    rfl
  have main : ∀ (fuel i : Nat), i + fuel = 8 → (∀ j < i, 31 * 4 ^ j < v) →
      (∃ k : Nat, k ≤ 7 ∧ v ≤ 31 * 4 ^ k ∧ (∀ j < k, 31 * 4 ^ j < v) ∧
        CT.compressFrom v ceil i fuel = .ok (some ⟨k, if ceil ∧ v % 4 ^ k ≠ 0 then v / 4 ^ k + 1
          else v / 4 ^ k⟩)) ∨
      (507904 < v ∧ CT.compressFrom v ceil i fuel = .ok none) := by
    intro fuel
    induction fuel with
    | zero =>
      intro i hi hj
      right
      refine ⟨?_, rfl⟩
      have := hj 7 (by omega)
      norm_num at this
      exact this
    | succ fuel ih =>
      intro i hi hj
      by_cases hv : v ≤ 31 * 4 ^ i
      · left
        refine ⟨i, by omega, hv, hj, ?_⟩
        unfold CT.compressFrom
        rw [if_pos (by rw [mul_comm]; exact hv)]
        exact hnew i (by omega) hv
      · unfold CT.compressFrom
        rw [if_neg (by rw [mul_comm]; exact hv)]
        refine ih (i + 1) (by omega) fun j hj' => ?_
        by_cases hji : j = i
        · subst hji; omega
        · exact hj j (by omega)
  exact main 8 0 rfl (by simp)

/-- C03: the result is an upper approximation and no representable value in between is missed. -/
theorem C03_compress_tightest (v : Int) (h0 : 0 ≤ v) (h1 : v ≤ 507904) :
    ∃ c, CT.compress v = .ok (some c) ∧ CT.new c.exp c.mant = .ok c ∧ v ≤ c.decompress ∧
      ∀ x, Representable x → v ≤ x → c.decompress ≤ x := by
  rcases CT.compress_cases v true h0 with ⟨i, hi, hv, hj, hc⟩ | ⟨h, _⟩
  · refine ⟨_, hc, ?_⟩
    simp only [true_and] at hc ⊢
    have hok : CT.Ok ⟨i, if v % 4 ^ i ≠ 0 then v / 4 ^ i + 1 else v / 4 ^ i⟩ := by
      refine ⟨⟨by simp only; omega, by simp only; omega⟩, ?_, ?_⟩ <;>
        interval_cases i <;> simp only <;> split_ifs <;> omega
    refine ⟨validate_of hok, ?_, ?_⟩
    · rw [CT.decompress_eq hok]
      simp only [Int.toNat_natCast]
      interval_cases i <;> split_ifs <;> omega
    · rintro x ⟨e, he, m, hm0, hm1, rfl⟩ hx
      rw [CT.decompress_eq hok]
      simp only [Int.toNat_natCast]
      have hei : i ≤ e := by
        by_contra hlt
        have := hj e (by omega)
        have h4 : (0:Int) < 4 ^ e := by positivity
        nlinarith
      obtain ⟨d, rfl⟩ := Nat.exists_eq_add_of_le hei
      have hd : i + d ≤ 7 := he
      rw [pow_add, mul_assoc] at hx ⊢
      have h4 : (0:Int) < 4 ^ i := by positivity
      have : (if v % 4 ^ i ≠ 0 then v / 4 ^ i + 1 else v / 4 ^ i) ≤ 4 ^ d * m := by
        have hle : v / 4 ^ i ≤ 4 ^ d * m := by
          have := Int.ediv_le_ediv h4 hx
          rwa [Int.mul_ediv_cancel_left _ (by omega)] at this
        split_ifs with hr
        · rcases Int.lt_or_eq_of_le hle with h | h
          · omega
          · exfalso
            have hdm := Int.mul_ediv_add_emod v (4 ^ i)
            have hnn := Int.emod_nonneg v (show (4:Int) ^ i ≠ 0 by omega)
            rw [h] at hdm
            omega
        · exact hle
      exact mul_le_mul_of_nonneg_left this (by omega)
  · omega

example : CT.compress 126 = .ok (some ⟨2, 8⟩) ∧ (⟨2, 8⟩ : CT).decompress = 128 := by decide

/-- C03: beyond the largest representable value the result is `None`. -/
theorem C03_compress_none (v : Int) (h : 507904 < v) : CT.compress v = .ok none := by
  rcases CT.compress_cases v true (by omega) with ⟨i, hi, hv, -, -⟩ | ⟨_, h⟩
  · interval_cases i <;> omega
  · exact h

example : CT.compress 507905 = .ok none := by decide

/-- C03: a negative value is a ValueError. -/
theorem C03_compress_negative (v : Int) (h : v < 0) : CT.compress v = .error .valueError := by
  unfold CT.compress CT.compressFrom
  rw [if_pos (by norm_num; omega)]
  simp only [pow_zero, Int.tdiv_one, Int.emod_one, ne_eq, not_true_eq_false, and_false, if_false]
  rw [CT.new, validate, if_neg (by rintro ⟨-, h', -⟩; omega)]
  rfl

example : CT.compress (-5) = .error .valueError := by decide

/-- C03: representable values are kept exactly. -/
theorem C03_compress_lossless (v : Int) (h : Representable v) :
    ∃ c, CT.compress v = .ok (some c) ∧ c.decompress = v := by
  have hb : 0 ≤ v ∧ v ≤ 507904 := by
    obtain ⟨e, he, m, h0, h1, rfl⟩ := h
    interval_cases e <;> omega
  obtain ⟨c, h1, -, h2, h3⟩ := C03_compress_tightest v hb.1 hb.2
  exact ⟨c, h1, le_antisymm (h3 v h (le_refl _)) h2⟩

example : Representable 124 := ⟨1, by decide, 31, by decide⟩

/-- C03: `compress` is monotone. -/
theorem C03_compress_monotone (v w : Int) (h0 : 0 ≤ v) (hvw : v ≤ w) (h1 : w ≤ 507904) :
    ∃ a b, CT.compress v = .ok (some a) ∧ CT.compress w = .ok (some b) ∧
      a.decompress ≤ b.decompress := by
  obtain ⟨a, a1, -, a2, a3⟩ := C03_compress_tightest v h0 (by omega)
  obtain ⟨b, b1, b0, b2, b3⟩ := C03_compress_tightest w (by omega) h1
  refine ⟨a, b, a1, b1, a3 _ ?_ (by omega)⟩
  have hok : b.Ok := (validate_eq_ok.1 b0).1
  rw [CT.decompress_eq hok]
  obtain ⟨⟨_, _⟩, _, _⟩ := hok
  exact ⟨b.exp.toNat, by omega, b.mant, by omega, by omega, rfl⟩

example : (0:Int) ≤ 100 ∧ (100:Int) ≤ 4000 ∧ (4000:Int) ≤ 507904 := by decide

/-- C04: acceptance. -/
theorem C04_ct_accepts (e m : Int) :
    AcceptsIff (CT.new e m) ((0 ≤ e ∧ e ≤ 7) ∧ (0 ≤ m ∧ m ≤ 31)) := validate_acceptsIff

example : (∃ c, CT.new 7 31 = .ok c) ∧ CT.new 8 0 = .error .valueError := ⟨⟨_, rfl⟩, rfl⟩

/-- C04: one byte `exp*32+mant`, parsed back; and the three ways to get the value agree. -/
theorem C04_ct_round_trip (e m : Int) (c : CT) (h : CT.new e m = .ok c) :
    c = ⟨e, m⟩ ∧ RoundTrips c.iter CT.parse c 1 ∧
    bytearray c.iter = .ok [UInt8.ofNat (e * 32 + m).toNat] ∧
    c.toInt = 4 ^ e.toNat * m ∧ c.decompress = 4 ^ e.toNat * m := by
  obtain ⟨hc, rfl⟩ := validate_eq_ok.1 h
  have hok : CT.Ok ⟨e, m⟩ := hc
  refine ⟨rfl, (CT.codec hok).roundTrips, ?_, rfl, CT.decompress_eq hok⟩
  have : CT.iter ⟨e, m⟩ = .int (e * 32 + m) := by
    rw [CT.iter, CT.compressedValue_eq]
  rw [this]
  exact Emits.int (by omega) (by omega)

example : CT.new 3 17 = .ok ⟨3, 17⟩ := by decide

/-- C04: every byte parses, and re-serialises to itself. -/
theorem C04_ct_every_byte (b : UInt8) (following : List UInt8) :
    ∃ c, CT.parse (stream (b :: following)) = .ok c ⟨8, bytesToBits following⟩ ∧
      CT.new c.exp c.mant = .ok c ∧ bytearray c.iter = .ok [b] := by
  have hb := b.toNat_lt
  have hok : CT.Ok ⟨(b.toNat / 32 : Nat), (b.toNat % 32 : Nat)⟩ := by
    refine ⟨⟨?_, ?_⟩, ?_, ?_⟩ <;> simp only <;> omega
  have hem : bytearray (CT.iter ⟨(b.toNat / 32 : Nat), (b.toNat % 32 : Nat)⟩) = .ok [b] := by
    have h1 := (C04_ct_round_trip _ _ _ (validate_of hok)).2.2.1
    rw [h1]
    congr 2
    have : ((b.toNat / 32 : Nat) * 32 + (b.toNat % 32 : Nat) : Int).toNat = b.toNat := by omega
    rw [this]
    simp
  refine ⟨⟨(b.toNat / 32 : Nat), (b.toNat % 32 : Nat)⟩, ?_, validate_of hok, hem⟩
  obtain ⟨bs, e, -, r⟩ := (CT.codec hok).roundTrips
  rw [hem] at e
  cases e
  exact r following

example : CT.parse (stream [0x6E, 1]) = .ok ⟨3, 14⟩ ⟨8, bytesToBits [1]⟩ := by decide

/-- C05: rounding down: the value is at most `v` and less than one step `4^exp` below. -/
theorem C05_compress_floor_bounds (v : Int) (h0 : 0 ≤ v) (h1 : v ≤ 507904) :
    ∃ c, CT.compress v false = .ok (some c) ∧ CT.new c.exp c.mant = .ok c ∧
      c.decompress ≤ v ∧ v < c.decompress + 4 ^ c.exp.toNat := by
  rcases CT.compress_cases v false h0 with ⟨i, hi, hv, hj, hc⟩ | ⟨h, _⟩
  · refine ⟨_, hc, ?_⟩
    simp only [Bool.false_eq_true, false_and, if_false] at hc ⊢
    have hok : CT.Ok ⟨i, v / 4 ^ i⟩ := by
      refine ⟨⟨by simp only; omega, by simp only; omega⟩, ?_, ?_⟩ <;>
        interval_cases i <;> simp only <;> omega
    refine ⟨validate_of hok, ?_, ?_⟩ <;> rw [CT.decompress_eq hok] <;>
      simp only [Int.toNat_natCast] <;> interval_cases i <;> omega
  · omega

example : CT.compress 125 false = .ok (some ⟨2, 7⟩) := by decide

/-- C05 is false as stated: 124 is representable, 125 is rounded down to 112. -/
theorem C05_floor_not_largest : ∃ v c x, 0 ≤ v ∧ v ≤ 507904 ∧
    CT.compress v false = .ok (some c) ∧ Representable x ∧ c.decompress < x ∧ x ≤ v :=
  ⟨125, ⟨2, 7⟩, 124, by decide, by decide, by decide, ⟨1, by decide, 31, by decide⟩, by decide,
    by decide⟩

/-- C05, exact version of the last clause: the result is the largest representable value `≤ v`
exactly when `v` is not strictly between `31*4^k` and `32*4^k` for a `k < 7`.
(The full statement, without the condition, is false: `C05_floor_not_largest`.) -/
theorem C05_floor_largest_partial (v : Int) (h0 : 0 ≤ v) (h1 : v ≤ 507904) :
    ∃ c, CT.compress v false = .ok (some c) ∧
      ((∀ x, Representable x → x ≤ v → x ≤ c.decompress) ↔
        ∀ k : Nat, k < 7 → ¬ (31 * 4 ^ k < v ∧ v < 32 * 4 ^ k)) := by
  rcases CT.compress_cases v false h0 with ⟨i, hi, hv, hj, hc⟩ | ⟨h, _⟩
  · refine ⟨_, hc, ?_⟩
    simp only [Bool.false_eq_true, false_and, if_false] at hc ⊢
    have hok : CT.Ok ⟨i, v / 4 ^ i⟩ := by
      refine ⟨⟨by simp only; omega, by simp only; omega⟩, ?_, ?_⟩ <;>
        interval_cases i <;> simp only <;> omega
    rw [CT.decompress_eq hok]
    simp only [Int.toNat_natCast]
    have h4 : (0:Int) < 4 ^ i := by positivity
    constructor
    · rintro h k hk ⟨ha, hb⟩
      have := h (4 ^ k * 31) ⟨k, by omega, 31, by decide, by decide, rfl⟩ (by omega)
      have hki : k < i := by
        by_contra hlt
        have hle : i ≤ k := by omega
        have : (4:Int) ^ i ≤ 4 ^ k := pow_le_pow_right₀ (by decide) hle
        omega
      interval_cases i <;> interval_cases k <;> omega
    · rintro h x ⟨e, he, m, hm0, hm1, rfl⟩ hx
      by_cases hei : i ≤ e
      · obtain ⟨d, rfl⟩ := Nat.exists_eq_add_of_le hei
        rw [pow_add, mul_assoc] at hx ⊢
        refine mul_le_mul_of_nonneg_left ?_ (by omega)
        rw [Int.le_ediv_iff_mul_le h4, mul_comm]
        exact hx
      · -- smaller exponents reach at most 31*4^(i-1)
        have hi1 : i ≠ 0 := by omega
        obtain ⟨k, rfl⟩ := Nat.exists_eq_succ_of_ne_zero hi1
        have hle : (4:Int) ^ e ≤ 4 ^ k := pow_le_pow_right₀ (by decide) (by omega)
        have he0 : (0:Int) < 4 ^ e := by positivity
        have hx31 : (4:Int) ^ e * m ≤ 31 * 4 ^ k := by nlinarith
        have hk := h k (by omega)
        have hjk := hj k (by omega)
        have h32 : 32 * 4 ^ k ≤ v := by
          by_contra hc
          exact hk ⟨hjk, by omega⟩
        refine le_trans hx31 ?_
        have : (8:Int) ≤ v / 4 ^ (k + 1) := by
          rw [Int.le_ediv_iff_mul_le h4, pow_succ]
          omega
        have hk0 : (0:Int) < 4 ^ k := by positivity
        have : (4:Int) ^ (k + 1) * 8 ≤ 4 ^ (k + 1) * (v / 4 ^ (k + 1)) :=
          mul_le_mul_of_nonneg_left this (by omega)
        refine le_trans ?_ this
        rw [pow_succ]
        omega
  · omega

example : ∀ k : Nat, k < 7 → ¬ ((31:Int) * 4 ^ k < 130 ∧ (130:Int) < 32 * 4 ^ k) := by decide

end Verif
