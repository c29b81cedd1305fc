import Verif.Lemmas.Codec
import Verif.Lemmas.AlpAdv
import Verif.Lemmas.Bridge

/-! C01, C02: the variable-size length field (d7a/alp/operands/length.py). -/

namespace Verif

/-- C01: exactly 0..0x3FFFFFFF is accepted; everything else is a ValueError. -/
theorem C01_length_accepts (v : Int) : AcceptsIff (Length.new v) (0 ≤ v ∧ v ≤ 0x3FFFFFFF) :=
  validate_acceptsIff

example : Length.new 0x3FFFFFFF = .ok ⟨0x3FFFFFFF⟩ ∧ Length.new 0x40000000 = .error .valueError ∧
    Length.new (-1) = .error .valueError := by decide

/-- C01: an accepted length holds `v`, serialises, and parses back with exact consumption. -/
theorem C01_length_round_trip (v : Int) (l : Length) (h : Length.new v = .ok l) :
    l.value = v ∧ ∃ n, RoundTrips l.iter Length.parse l n := by
  obtain ⟨hv, rfl⟩ := validate_eq_ok.1 h
  exact ⟨rfl, _, (Length.codec hv).roundTrips⟩

example : Length.new 16500 = .ok ⟨16500⟩ := by decide
example : bytearray (Length.iter ⟨16500⟩) = .ok [0x80, 0x40, 0x74] := by decide

/-- Number of bytes the format needs for `v`: 6, 14, 22 or 30 value bits. -/
def lengthFieldBytes (v : Int) : Nat :=
  if v < 2 ^ 6 then 1 else if v < 2 ^ 14 then 2 else if v < 2 ^ 22 then 3 else 4

/-- C02: the encoding has the minimal number of bytes. -/
theorem C02_length_size (v : Int) (l : Length) (h : Length.new v = .ok l) :
    ∃ bs, bytearray l.iter = .ok bs ∧ bs.length = lengthFieldBytes v := by
  obtain ⟨hv, rfl⟩ := validate_eq_ok.1 h
  obtain ⟨bs, e, hl, -⟩ := Length.codec (l := ⟨v⟩) hv
  refine ⟨bs, e, ?_⟩
  have := Length.size_cases ⟨v⟩ hv
  simp only [lengthFieldBytes]
  simp only at this
  split_ifs <;> omega

example : ∃ bs, bytearray (Length.iter ⟨64⟩) = .ok bs ∧ bs.length = 2 := ⟨[0x40, 0x40], by decide⟩

/-- A stream of whole bytes splits at a byte boundary. -/
theorem bytes_split {bs : List UInt8} {c d : List Bool} (h : bytesToBits bs = c ++ d)
    (hc : c.length % 8 = 0) : ∃ x y, bs = x ++ y ∧ bytesToBits x = c ∧ bytesToBits y = d := by
  have hl := congrArg List.length h
  simp at hl
  refine ⟨bs.take (c.length / 8), bs.drop (c.length / 8), by simp, ?_⟩
  have h2 : bytesToBits (bs.take (c.length / 8)) ++ bytesToBits (bs.drop (c.length / 8)) =
      c ++ d := by
    rw [← bytesToBits_append, List.take_append_drop, h]
  exact List.append_inj h2 (by simp; omega)

/-- C02: whatever byte string the parser reads as a length, the canonical encoding of that length
is not longer. -/
theorem C02_length_shortest (bs : List UInt8) (l : Length) (s : St)
    (h : Length.parse (stream bs) = .ok l s) :
    ∃ enc, bytearray l.iter = .ok enc ∧ 8 * enc.length ≤ s.pos := by
  -- the value is that of the 6 + 8k bits after the size bits
  have key : ∃ k : Nat, k < 4 ∧ s.pos = 8 * (k + 1) ∧ l.Ok ∧ l.value < 2 ^ (6 + k * 8) := by
    unfold Length.parse at h
    simp only [P.bind_apply] at h
    cases h1 : P.uint 2 (stream bs) with
    | err e s1 => rw [h1] at h; cases h
    | ok sz s1 =>
      rw [h1] at h
      simp only [] at h
      obtain ⟨c1, a1, a2, a3⟩ := (Good.uint 2).ok h1
      cases h2 : P.uint (6 + sz.toNat * 8) s1 with
      | err e s2 => rw [h2] at h; cases h
      | ok v s2 =>
        rw [h2] at h
        simp only [P.lift] at h
        have hs : s2 = s := by
          split at h <;> cases h
          rfl
        have hn : Length.new v = .ok l := by
          split at h
          · next hh => cases h; exact hh
          · cases h
        subst hs
        obtain ⟨hv, rfl⟩ := validate_eq_ok.1 hn
        have u1 : ∀ (w : Nat) (s s' : St) (x : Int), P.uint w s = .ok x s' →
            0 ≤ x ∧ x < 2 ^ w ∧ s'.pos = s.pos + w := by
          intro w s s' x hx
          simp only [P.uint, P.bind_apply, P.takeBits] at hx
          split at hx
          · next hle =>
            split at hle
            · cases hle
              cases hx
              next hle' =>
              have := bitsToNat_lt (List.take w s.rest)
              rw [List.length_take, min_eq_left hle'] at this
              refine ⟨by omega, by exact_mod_cast this, rfl⟩
            · cases hle
          · cases hx
        have b1 := u1 _ _ _ _ h1
        have b2 := u1 _ _ _ _ h2
        refine ⟨sz.toNat, by omega, ?_, hv, ?_⟩
        · have : (stream bs).pos = 0 := rfl
          omega
        · exact b2.2.1
  obtain ⟨k, hk, hp, hok, hlt⟩ := key
  obtain ⟨enc, e, hl, -⟩ := Length.codec hok
  refine ⟨enc, e, ?_⟩
  have := Length.size_cases l hok
  have : l.size ≤ k + 1 := by
    interval_cases k <;> omega
  omega

example : Length.parse (stream [0x80, 0, 5, 9]) = .ok ⟨5⟩ ⟨24, bytesToBits [9]⟩ := by decide

/-- C02: no encoding is a prefix of another one. -/
theorem C02_length_prefix_free (v w : Int) (a b : Length) (x y : List UInt8)
    (ha : Length.new v = .ok a) (hb : Length.new w = .ok b)
    (hx : bytearray a.iter = .ok x) (hy : bytearray b.iter = .ok y) (hp : x <+: y) : v = w := by
  obtain ⟨hv, rfl⟩ := validate_eq_ok.1 ha
  obtain ⟨hw, rfl⟩ := validate_eq_ok.1 hb
  obtain ⟨x', ex, -, rx⟩ := Length.codec (l := ⟨v⟩) hv
  obtain ⟨y', ey, -, ry⟩ := Length.codec (l := ⟨w⟩) hw
  cases Emits.unique ex hx
  cases Emits.unique ey hy
  obtain ⟨t, rfl⟩ := hp
  rw [bytesToBits_append] at ry
  have := (Reads.unique (r := bytesToBits t) (r' := []) rx ry (by simp)).1
  injection this

example : ¬ ([0x3F] <+: ([0x40, 0x40] : List UInt8)) := by decide

/-- C02: a concatenation of length fields can be read in one way only. -/
theorem C02_length_sequence_unique (vs ws : List Int) (xs ys : List (List UInt8))
    (hx : vs.map (fun v => (Length.new v).bind fun l => bytearray l.iter) = xs.map .ok)
    (hy : ws.map (fun v => (Length.new v).bind fun l => bytearray l.iter) = ys.map .ok)
    (h : xs.flatten = ys.flatten) : vs = ws := by
  have enc : ∀ (v : Int) (x : List UInt8),
      ((Length.new v).bind fun l => bytearray l.iter) = .ok x →
      0 < x.length ∧ Reads Length.parse ⟨v⟩ (bytesToBits x) := by
    intro v x hx
    cases hv : Length.new v with
    | error e => rw [hv] at hx; cases hx
    | ok l =>
      rw [hv] at hx
      obtain ⟨hok, rfl⟩ := validate_eq_ok.1 hv
      obtain ⟨x', ex, hl, rx⟩ := Length.codec (l := ⟨v⟩) hok
      cases Emits.unique ex hx
      have := Length.size_cases ⟨v⟩ hok
      exact ⟨by omega, rx⟩
  induction vs generalizing ws xs ys with
  | nil =>
    cases xs with
    | cons _ _ => simp at hx
    | nil =>
      cases ws with
      | nil => rfl
      | cons w ws =>
        cases ys with
        | nil => simp at hy
        | cons y ys =>
          simp only [List.map_cons, List.cons.injEq] at hy
          have := (enc _ _ hy.1).1
          have h' := congrArg List.length h
          simp only [List.flatten_cons, List.flatten_nil, List.length_append, List.length_nil] at h'
          omega
  | cons v vs ih =>
    cases xs with
    | nil => simp at hx
    | cons x xs =>
      simp only [List.map_cons, List.cons.injEq] at hx
      have hv := enc _ _ hx.1
      cases ws with
      | nil =>
        cases ys with
        | cons _ _ => simp at hy
        | nil =>
          have h' := congrArg List.length h
          simp only [List.flatten_cons, List.flatten_nil, List.length_append, List.length_nil] at h'
          omega
      | cons w ws =>
        cases ys with
        | nil => simp at hy
        | cons y ys =>
          simp only [List.map_cons, List.cons.injEq] at hy
          have hw := enc _ _ hy.1
          simp only [List.flatten_cons] at h
          have hb := congrArg bytesToBits h
          simp only [bytesToBits_append] at hb
          have hu := Reads.unique hv.2 hw.2 hb
          have hvw : v = w := by injection hu.1
          have hxy := bytesToBits_inj hu.2
          subst hvw hxy
          rw [List.append_cancel_left_eq] at h
          rw [ih _ _ _ hx.2 hy.2 h]

example : [100, 3].map (fun v => (Length.new v).bind fun l => bytearray l.iter) =
    [[0x40, 100], [3]].map .ok := by decide

end Verif
