import Mathlib.Data.Int.Bitwise
import Mathlib.Tactic.Ring
import Mathlib.Tactic.IntervalCases
import Verif.Py

/-! Lemmas about bits, bytes, streams and generators. -/

namespace Verif

/-! ### Bits -/

@[simp] theorem bitsOf_length (w n : Nat) : (bitsOf w n).length = w := by
  induction w with
  | zero => rfl
  | succ w ih => simp [bitsOf, ih]

theorem bitsOf_append (w1 w2 a b : Nat) (hb : b < 2 ^ w2) :
    bitsOf (w1 + w2) (a * 2 ^ w2 + b) = bitsOf w1 a ++ bitsOf w2 b := by
  have key : ∀ w, w ≤ w2 → bitsOf w (a * 2 ^ w2 + b) = bitsOf w b := by
    intro w
    induction w with
    | zero => intro _; rfl
    | succ w ih =>
      intro h
      simp only [bitsOf]
      rw [ih (by omega), Nat.mul_comm, Nat.testBit_two_pow_mul_add _ hb, if_pos (by omega)]
  induction w1 with
  | zero => simp [bitsOf, key w2 (Nat.le_refl _)]
  | succ w1 ih =>
    rw [show w1 + 1 + w2 = (w1 + w2) + 1 by omega]
    simp only [bitsOf, List.cons_append]
    rw [ih, Nat.mul_comm, Nat.testBit_two_pow_mul_add _ hb, if_neg (by omega)]
    congr 2
    omega

theorem foldl_bits (l : List Bool) : ∀ x : Nat,
    l.foldl (fun a b => 2 * a + b.toNat) x = x * 2 ^ l.length + bitsToNat l := by
  unfold bitsToNat
  induction l with
  | nil => intro x; simp
  | cons b l ih =>
    intro x
    simp only [List.foldl_cons, List.length_cons]
    rw [ih, ih (2 * 0 + b.toNat)]
    ring

theorem bitsToNat_cons (b : Bool) (l : List Bool) :
    bitsToNat (b :: l) = b.toNat * 2 ^ l.length + bitsToNat l := by
  have := foldl_bits l (2 * 0 + b.toNat)
  simp only [Nat.mul_zero, Nat.zero_add] at this
  simpa [bitsToNat] using this

@[simp] theorem bitsToNat_nil : bitsToNat [] = 0 := rfl

theorem bitsToNat_append (l m : List Bool) :
    bitsToNat (l ++ m) = bitsToNat l * 2 ^ m.length + bitsToNat m := by
  unfold bitsToNat
  rw [List.foldl_append, foldl_bits]
  rfl

theorem bitsToNat_lt (l : List Bool) : bitsToNat l < 2 ^ l.length := by
  induction l with
  | nil => simp
  | cons b l ih =>
    rw [bitsToNat_cons, List.length_cons, Nat.pow_succ]
    cases b <;> simp <;> omega

theorem bitsToNat_bitsOf (w n : Nat) : bitsToNat (bitsOf w n) = n % 2 ^ w := by
  induction w with
  | zero => simp [bitsOf, Nat.mod_one]
  | succ w ih =>
    rw [bitsOf, bitsToNat_cons, ih, bitsOf_length, Nat.pow_succ, Nat.mod_mul, Nat.testBit]
    simp only [Nat.shiftRight_eq_div_pow, Nat.one_and_eq_mod_two]
    rcases Nat.mod_two_eq_zero_or_one (n / 2 ^ w) with h | h <;> simp [h]
    omega

theorem bitsOf_bitsToNat (l : List Bool) : bitsOf l.length (bitsToNat l) = l := by
  induction l with
  | nil => rfl
  | cons b l ih =>
    have h := bitsOf_append 1 l.length b.toNat (bitsToNat l) (bitsToNat_lt l)
    rw [bitsToNat_cons, List.length_cons, Nat.add_comm, h, ih]
    cases b <;> simp [bitsOf]

@[simp] theorem bytesToBits_nil : bytesToBits [] = [] := rfl

@[simp] theorem bytesToBits_cons (b : UInt8) (bs : List UInt8) :
    bytesToBits (b :: bs) = bitsOf 8 b.toNat ++ bytesToBits bs := rfl

@[simp] theorem bytesToBits_append (a b : List UInt8) :
    bytesToBits (a ++ b) = bytesToBits a ++ bytesToBits b := by
  simp [bytesToBits]

@[simp] theorem bytesToBits_length (bs : List UInt8) :
    (bytesToBits bs).length = 8 * bs.length := by
  induction bs with
  | nil => rfl
  | cons b bs ih => simp [ih]; omega

@[simp] theorem bitsToBytes_bytesToBits (bs : List UInt8) :
    bitsToBytes (bytesToBits bs) = bs := by
  induction bs with
  | nil => rw [bitsToBytes]; simp
  | cons b bs ih =>
    rw [bitsToBytes]
    have h1 : List.take 8 (bitsOf 8 b.toNat ++ bytesToBits bs) = bitsOf 8 b.toNat := by
      rw [List.take_append_of_le_length (by simp)]
      rw [List.take_of_length_le (by simp)]
    have h2 : List.drop 8 (bitsOf 8 b.toNat ++ bytesToBits bs) = bytesToBits bs := by
      rw [List.drop_append_of_le_length (by simp)]
      simp
    simp only [bytesToBits_cons, h1, h2, ih]
    rw [if_pos (by simp)]
    congr 1
    rw [bitsToNat_bitsOf]
    have := b.toNat_lt
    rw [Nat.mod_eq_of_lt (by simpa using this)]
    simp

theorem bytesToBits_inj {a b : List UInt8} (h : bytesToBits a = bytesToBits b) : a = b := by
  rw [← bitsToBytes_bytesToBits a, h, bitsToBytes_bytesToBits]

theorem bitsToBytes_spec (l : List Bool) (n : Nat) (h : l.length = 8 * n) :
    bytesToBits (bitsToBytes l) = l ∧ (bitsToBytes l).length = n := by
  induction n generalizing l with
  | zero =>
    have : l = [] := List.eq_nil_of_length_eq_zero (by omega)
    subst this
    rw [bitsToBytes]; simp
  | succ n ih =>
    rw [bitsToBytes, if_pos (by omega)]
    have := ih (l.drop 8) (by simp; omega)
    have h8 : (l.take 8).length = 8 := by simp; omega
    constructor
    · rw [bytesToBits_cons, this.1]
      have hlt := bitsToNat_lt (l.take 8)
      rw [h8] at hlt
      have e : (UInt8.ofNat (bitsToNat (l.take 8))).toNat = bitsToNat (l.take 8) := by
        simp; omega
      have := bitsOf_bitsToNat (l.take 8)
      rw [h8] at this
      rw [e, this, List.take_append_drop]
    · simp [this.2]

@[simp] theorem ofNat_toNat_u8 {n : Nat} (h : n < 256) : (UInt8.ofNat n).toNat = n := by
  simp; omega

theorem beBytes_length (k n : Nat) : (beBytes k n).length = k := by
  induction k with
  | zero => rfl
  | succ k ih => simp [beBytes, ih]

theorem bytesToBits_beBytes (k n : Nat) : bytesToBits (beBytes k n) = bitsOf (8 * k) n := by
  induction k with
  | zero => rfl
  | succ k ih =>
    have : n / 256 ^ k % 256 < 256 := Nat.mod_lt _ (by decide)
    rw [beBytes, bytesToBits_cons, ih, ofNat_toNat_u8 this]
    -- the low bits of `n` do not see the part above them
    have h1 : ∀ w m, bitsOf w (m % 2 ^ w) = bitsOf w m := by
      intro w m
      have := bitsOf_bitsToNat (bitsOf w m)
      rw [bitsToNat_bitsOf, bitsOf_length] at this
      exact this
    have h3 := bitsOf_append 8 (8 * k) (n / 256 ^ k % 256) (n % 2 ^ (8 * k))
      (Nat.mod_lt _ (by positivity))
    rw [← h1 (8 * k) n, ← h3, ← h1 (8 * (k + 1)) n, show 8 * (k + 1) = 8 + 8 * k by ring]
    congr 1
    have e : (256 : Nat) ^ k = 2 ^ (8 * k) := by rw [Nat.pow_mul]
    rw [e, Nat.add_comm 8, Nat.pow_add, Nat.mod_mul]
    ring

/-! ### Streams -/

namespace P

@[simp] theorem pure_apply {α : Type} (a : α) (s : St) : (Pure.pure a : P α) s = .ok a s := rfl

theorem bind_apply {α β : Type} (p : P α) (f : α → P β) (s : St) :
    (p >>= f) s = match p s with
      | .ok a s' => f a s'
      | .err e s' => .err e s' := rfl

end P

/-- Reading `bits` with `p` gives `v` and consumes exactly `bits`, whatever follows. -/
def Reads {α : Type} (p : P α) (v : α) (bits : List Bool) : Prop :=
  ∀ pos rest, p ⟨pos, bits ++ rest⟩ = .ok v ⟨pos + bits.length, rest⟩

namespace Reads

variable {α β : Type}

theorem pure (a : α) : Reads (Pure.pure a) a [] := by
  intro pos rest; simp

theorem bind {p : P α} {f : α → P β} {a : α} {b : β} {l m : List Bool}
    (h : Reads p a l) (h' : Reads (f a) b m) : Reads (p >>= f) b (l ++ m) := by
  intro pos rest
  rw [P.bind_apply, List.append_assoc, h]
  simp only []
  rw [h']
  simp [Nat.add_assoc]

/-- A bind whose first part reads nothing. -/
theorem bind0 {p : P α} {f : α → P β} {a : α} {b : β} {m : List Bool}
    (h : Reads p a []) (h' : Reads (f a) b m) : Reads (p >>= f) b m := by
  simpa using bind h h'

/-- A bind whose second part reads nothing. -/
theorem bindr {p : P α} {f : α → P β} {a : α} {b : β} {m : List Bool}
    (h : Reads p a m) (h' : Reads (f a) b []) : Reads (p >>= f) b m := by
  simpa using bind h h'

theorem lift {x : Except PyErr α} {a : α} (h : x = .ok a) : Reads (P.lift x) a [] := by
  intro pos rest; simp [P.lift, h]

theorem takeBits (l : List Bool) (n : Nat) (h : l.length = n) : Reads (P.takeBits n) l l := by
  intro pos rest
  subst h
  simp [P.takeBits]

theorem uint (w n : Nat) (h : n < 2 ^ w) : Reads (P.uint w) (n : Int) (bitsOf w n) := by
  have := Reads.bindr (f := fun l => (Pure.pure ((bitsToNat l : Nat) : Int) : P Int))
    (takeBits (bitsOf w n) w (by simp)) (pure _)
  rw [bitsToNat_bitsOf, Nat.mod_eq_of_lt h] at this
  exact this

theorem uintI (w : Nat) (i : Int) (h0 : 0 ≤ i) (h : i < 2 ^ w) :
    Reads (P.uint w) i (bitsOf w i.toNat) := by
  have := uint w i.toNat (by
    have : (i.toNat : Int) < ((2 ^ w : Nat) : Int) := by push_cast; omega
    omega)
  rwa [Int.toNat_of_nonneg h0] at this

theorem bool (b : Bool) : Reads P.bool b [b] := by
  have := Reads.bindr (f := fun l => (Pure.pure (bitsToNat l == 1) : P Bool))
    (takeBits [b] 1 rfl) (pure _)
  cases b <;> exact this

theorem pad (l : List Bool) (n : Nat) (h : l.length = n) : Reads (P.pad n) () l :=
  Reads.bindr (takeBits l n h) (pure _)

theorem bytes (bs : List UInt8) (n : Nat) (h : bs.length = n) :
    Reads (P.bytes n) bs (bytesToBits bs) := by
  have := Reads.bindr (f := fun l => (Pure.pure (bitsToBytes l) : P (List UInt8)))
    (takeBits (bytesToBits bs) (8 * n) (by simp [h])) (pure _)
  rw [bitsToBytes_bytesToBits] at this
  exact this

/-- A successful read determines both value and consumed bits. -/
theorem unique {p : P α} {a b : α} {l m : List Bool} {r r' : List Bool}
    (h : Reads p a l) (h' : Reads p b m) (e : l ++ r = m ++ r') : a = b ∧ l = m := by
  have h1 := h 0 r
  have h2 := h' 0 r'
  rw [e, h2] at h1
  injection h1 with h3 h4
  injection h4 with h5 h6
  refine ⟨h3.symm, ?_⟩
  subst h6
  exact List.append_cancel_right e

end Reads

/-! ### Generators -/

theorem Gen.append_def (g h : Gen) : g ++ h = Gen.append g h := rfl

theorem itemsToBytes_append (a b : List Item) :
    itemsToBytes (a ++ b) = (do
      let x ← itemsToBytes a
      let y ← itemsToBytes b
      return x ++ y) := by
  induction a with
  | nil =>
    simp only [List.nil_append, itemsToBytes]
    cases itemsToBytes b <;> rfl
  | cons i a ih =>
    simp only [List.cons_append, itemsToBytes]
    cases h : i.toByte with
    | error e => rfl
    | ok x =>
      simp only [ih]
      cases itemsToBytes a with
      | error e => rfl
      | ok y =>
        cases itemsToBytes b with
        | error e => rfl
        | ok z => rfl

theorem bytearray_append (g h : Gen) :
    bytearray (g ++ h) = (do
      let x ← bytearray g
      let y ← bytearray h
      return x ++ y) := by
  obtain ⟨gi, ge⟩ := g
  obtain ⟨hi, he⟩ := h
  cases ge with
  | some e =>
    simp only [Gen.append_def, Gen.append, bytearray]
    cases itemsToBytes gi <;> rfl
  | none =>
    simp only [Gen.append_def, Gen.append, bytearray, itemsToBytes_append]
    cases itemsToBytes gi with
    | error e => rfl
    | ok x =>
      cases itemsToBytes hi with
      | error e => rfl
      | ok y => cases he <;> rfl

/-- `bytearray` of the generator succeeds with these bytes. -/
def Emits (g : Gen) (bs : List UInt8) : Prop := bytearray g = .ok bs

namespace Emits

theorem append {g h : Gen} {a b : List UInt8} (hg : Emits g a) (hh : Emits h b) :
    Emits (g ++ h) (a ++ b) := by
  unfold Emits at *
  rw [bytearray_append, hg, hh]
  rfl

theorem nil : Emits .nil [] := rfl

theorem int {i : Int} (h0 : 0 ≤ i) (h : i ≤ 255) : Emits (.int i) [UInt8.ofNat i.toNat] := by
  simp [Emits, Gen.int, bytearray, itemsToBytes, Item.toByte, h0, h]

theorem chr {i : Int} (h0 : 0 ≤ i) (h : i ≤ 255) : Emits (.chr i) [UInt8.ofNat i.toNat] := by
  simp [Emits, Gen.chr, bytearray, itemsToBytes, Item.toByte, h0, h]

theorem ofBytes (bs : List UInt8) : Emits (.ofBytes (.ok bs)) bs := by
  have key : itemsToBytes (bs.map fun b => .int b.toNat) = .ok bs := by
    induction bs with
    | nil => rfl
    | cons b bs ih =>
      have := b.toNat_lt
      simp only [List.map_cons, itemsToBytes, Item.toByte, ih]
      rw [if_pos (by omega)]
      simp
  simp [Emits, Gen.ofBytes, bytearray, key]

theorem packU {k : Nat} {v : Int} (h0 : 0 ≤ v) (h : v < 256 ^ k) :
    Emits (.ofBytes (Verif.packU k v)) (beBytes k v.toNat) := by
  have : v.toNat < 256 ^ k := by
    have h' : (v.toNat : Int) < ((256 ^ k : Nat) : Int) := by push_cast; omega
    exact_mod_cast h'
  rw [Verif.packU, if_pos ⟨h0, this⟩]
  exact ofBytes _

theorem unique {g : Gen} {a b : List UInt8} (h : Emits g a) (h' : Emits g b) : a = b := by
  unfold Emits at *
  rw [h] at h'
  injection h'

end Emits

/-! ### Validation -/

theorem validate_eq_ok {α : Type} {c : Prop} [Decidable c] {a b : α} :
    validate c a = .ok b ↔ c ∧ a = b := by
  unfold validate
  split <;> simp_all

theorem validate_of {α : Type} {c : Prop} [Decidable c] {a : α} (h : c) :
    validate c a = .ok a := by simp [validate, h]

theorem validate_eq_error {α : Type} {c : Prop} [Decidable c] {a : α} {e : PyErr} :
    validate c a = .error e ↔ ¬ c ∧ e = .valueError := by
  unfold validate
  split <;> simp_all [eq_comm]

end Verif

namespace Verif

theorem Gen.append_assoc (a b c : Gen) : a ++ b ++ c = a ++ (b ++ c) := by
  obtain ⟨ai, ae⟩ := a
  obtain ⟨bi, be⟩ := b
  obtain ⟨ci, ce⟩ := c
  cases ae <;> cases be <;> simp [Gen.append_def, Gen.append]

theorem Reads.congr {α : Type} {p : P α} {v : α} {l m : List Bool} (h : Reads p v l)
    (e : m = l) : Reads p v m := e ▸ h

/-- Reading an enum member: the number, then the lookup. -/
theorem Reads.enum {ε β : Type} {ofv : Int → Except PyErr ε} {e : ε} {f : ε → P β} {b : β}
    {m : List Bool} (w : Nat) (i : Int) (h0 : 0 ≤ i) (h : i < 2 ^ w) (ho : ofv i = .ok e)
    (hf : Reads (f e) b m) :
    Reads (P.uint w >>= fun x => P.lift (ofv x) >>= f) b (bitsOf w i.toNat ++ m) :=
  Reads.bind (Reads.uintI w i h0 h) (Reads.bind0 (Reads.lift ho) hf)

/-- The generator serialises to `n` bytes which the parser reads back as `v`. -/
def Codec {α : Type} (g : Gen) (p : P α) (v : α) (n : Nat) : Prop :=
  ∃ bs, Emits g bs ∧ bs.length = n ∧ Reads p v (bytesToBits bs)

namespace Codec

variable {α β : Type}

theorem seq {g h : Gen} {p : P α} {f : α → P β} {a : α} {b : β} {n m : Nat}
    (h1 : Codec g p a n) (h2 : Codec h (f a) b m) : Codec (g ++ h) (p >>= f) b (n + m) := by
  obtain ⟨bs, e, l, r⟩ := h1
  obtain ⟨bs', e', l', r'⟩ := h2
  refine ⟨bs ++ bs', e.append e', by simp [l, l'], ?_⟩
  rw [bytesToBits_append]
  exact r.bind r'

theorem seqr {g : Gen} {p : P α} {f : α → P β} {a : α} {b : β} {n : Nat}
    (h1 : Codec g p a n) (h2 : Reads (f a) b []) : Codec g (p >>= f) b n := by
  obtain ⟨bs, e, l, r⟩ := h1
  exact ⟨bs, e, l, r.bindr h2⟩

theorem seq0 {g : Gen} {p : P α} {f : α → P β} {a : α} {b : β} {n : Nat}
    (h1 : Reads p a []) (h2 : Codec g (f a) b n) : Codec g (p >>= f) b n := by
  obtain ⟨bs, e, l, r⟩ := h2
  exact ⟨bs, e, l, h1.bind0 r⟩

theorem pure (a : α) : Codec .nil (Pure.pure a) a 0 := ⟨[], Emits.nil, rfl, Reads.pure a⟩

/-- A single byte whose bits are given. -/
theorem byte {p : P α} {v : α} {i : Int} (h0 : 0 ≤ i) (h : i ≤ 255)
    (hr : Reads p v (bitsOf 8 i.toNat)) : Codec (.int i) p v 1 := by
  refine ⟨_, Emits.int h0 h, rfl, ?_⟩
  rw [bytesToBits_cons, ofNat_toNat_u8 (by omega)]
  simpa using hr

theorem u8 {i : Int} (h : isByte i) : Codec (.int i) (P.uint 8) i 1 :=
  byte h.1 (by have := h.2; omega) (Reads.uintI 8 i h.1 (by have := h.2; omega))

theorem u8chr {i : Int} (h : isByte i) : Codec (.chr i) (P.uint 8) i 1 := by
  refine ⟨_, Emits.chr h.1 (by have := h.2; omega), rfl, ?_⟩
  have := h.2
  have h0 := h.1
  rw [bytesToBits_cons, ofNat_toNat_u8 (by omega)]
  simpa using (Reads.uintI 8 i h.1 (by omega))

theorem packU {k : Nat} {v : Int} (h0 : 0 ≤ v) (h : v < 256 ^ k) :
    Codec (.ofBytes (Verif.packU k v)) (P.uint (8 * k)) v k := by
  refine ⟨_, Emits.packU h0 h, beBytes_length _ _, ?_⟩
  rw [bytesToBits_beBytes]
  refine Reads.uintI _ _ h0 ?_
  have : (256 : Int) ^ k = 2 ^ (8 * k) := by rw [pow_mul]; norm_num
  omega

/-- A byte read as several bit fields, followed by more. -/
theorem bits {p : P β} {b : β} {i : Int} {g : Gen} {n : Nat} (h0 : 0 ≤ i) (h : i ≤ 255)
    (h2 : ∀ m bs, Emits g bs → bytesToBits bs = m → bs.length = n →
      Reads p b (bitsOf 8 i.toNat ++ m))
    (hg : ∃ bs, Emits g bs ∧ bs.length = n) : Codec (.int i ++ g) p b (1 + n) := by
  obtain ⟨bs, e, l⟩ := hg
  refine ⟨_, (Emits.int h0 h).append e, by simp [l]; omega, ?_⟩
  rw [bytesToBits_append, bytesToBits_cons, ofNat_toNat_u8 (by omega)]
  simpa using h2 _ bs e rfl l

end Codec
end Verif
