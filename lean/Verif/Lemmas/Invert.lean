import Verif.Lemmas.BuiltOk
import Verif.Lemmas.Bridge

/-! Failing reads and inversion of successful parses and serialisations. -/

namespace Verif

/-- Reading `bits` with `p` raises `e`, whatever follows. -/
def Fails {α : Type} (p : P α) (e : PyErr) (bits : List Bool) : Prop :=
  ∀ pos rest, ∃ s, p ⟨pos, bits ++ rest⟩ = .err e s

namespace Fails

variable {α β : Type}

theorem bind {p : P α} {f : α → P β} {a : α} {e : PyErr} {l m : List Bool}
    (h : Reads p a l) (h' : Fails (f a) e m) : Fails (p >>= f) e (l ++ m) := by
  intro pos rest
  obtain ⟨s, hs⟩ := h' (pos + l.length) rest
  exact ⟨s, by rw [P.bind_apply, List.append_assoc, h]; exact hs⟩

theorem bind0 {p : P α} {f : α → P β} {a : α} {e : PyErr} {m : List Bool}
    (h : Reads p a []) (h' : Fails (f a) e m) : Fails (p >>= f) e m := by
  simpa using bind h h'

theorem here {p : P α} {f : α → P β} {e : PyErr} {m : List Bool}
    (h : Fails p e m) : Fails (p >>= f) e m := by
  intro pos rest
  obtain ⟨s, hs⟩ := h pos rest
  exact ⟨s, by rw [P.bind_apply, hs]⟩

theorem lift {x : Except PyErr α} {e : PyErr} (h : x = .error e) (m : List Bool) :
    Fails (P.lift x) e m := by
  intro pos rest
  exact ⟨_, by simp only [P.lift, h]; rfl⟩

theorem raise {e : PyErr} (m : List Bool) : Fails (P.raise e : P α) e m := fun _ _ => ⟨_, rfl⟩

theorem assert {c : Prop} [Decidable c] (h : ¬ c) (b : Bool) (m : List Bool) :
    Fails (P.assert c b) (.assertion b) m := by
  intro pos rest
  exact ⟨_, by simp only [P.assert, if_neg h]; rfl⟩

theorem append {p : P α} {e : PyErr} {l m : List Bool} (h : Fails p e l) : Fails p e (l ++ m) := by
  intro pos rest
  rw [List.append_assoc]
  exact h pos (m ++ rest)

end Fails

theorem P.bind_ok {α β : Type} {p : P α} {f : α → P β} {s s' : St} {b : β} :
    (p >>= f) s = .ok b s' ↔ ∃ a s1, p s = .ok a s1 ∧ f a s1 = .ok b s' := by
  rw [P.bind_apply]
  cases p s <;> simp

theorem P.lift_ok {α : Type} {x : Except PyErr α} {s s' : St} {b : α} :
    P.lift x s = .ok b s' ↔ x = .ok b ∧ s = s' := by
  unfold P.lift
  cases x <;> simp

theorem P.assert_ok {c : Prop} [Decidable c] {h : Bool} {s s' : St} {b : Unit} :
    P.assert c h s = .ok b s' ↔ c ∧ s = s' := by
  unfold P.assert
  split <;> simp_all

theorem P.pure_ok {α : Type} {a b : α} {s s' : St} :
    (Pure.pure a : P α) s = .ok b s' ↔ a = b ∧ s = s' := by simp

theorem P.takeBits_ok {n : Nat} {s s' : St} {l : List Bool} :
    P.takeBits n s = .ok l s' ↔ l.length = n ∧ s.rest = l ++ s'.rest ∧ s'.pos = s.pos + n := by
  obtain ⟨p, r⟩ := s
  obtain ⟨p', r'⟩ := s'
  unfold P.takeBits
  simp only
  split
  · next h =>
    simp only [Res.ok.injEq, St.mk.injEq]
    constructor
    · rintro ⟨rfl, rfl, rfl⟩
      simp [h]
    · rintro ⟨rfl, rfl, rfl⟩
      simp
  · next h =>
    simp only [reduceCtorEq, false_iff]
    rintro ⟨rfl, rfl, -⟩
    simp at h

theorem P.bytes_ok {n : Nat} {s s' : St} {l : List UInt8} :
    P.bytes n s = .ok l s' ↔ l.length = n ∧ s.rest = bytesToBits l ++ s'.rest ∧
      s'.pos = s.pos + 8 * n := by
  unfold P.bytes
  simp only [P.bind_ok, P.takeBits_ok, P.pure_ok]
  constructor
  · rintro ⟨a, s1, ⟨h1, h2, h3⟩, rfl, rfl⟩
    obtain ⟨hb, hl⟩ := bitsToBytes_spec a n h1
    refine ⟨hl, ?_, h3⟩
    rw [hb]; exact h2
  · rintro ⟨h1, h2, h3⟩
    exact ⟨bytesToBits l, s', ⟨by simp [h1], h2, h3⟩, bitsToBytes_bytesToBits l, rfl⟩

theorem Emits.append_inv {g h : Gen} {bs : List UInt8} (e : Emits (g ++ h) bs) :
    ∃ a b, Emits g a ∧ Emits h b ∧ bs = a ++ b := by
  unfold Emits at *
  rw [bytearray_append] at e
  cases hg : bytearray g with
  | error x => rw [hg] at e; cases e
  | ok a =>
    cases hh : bytearray h with
    | error x => rw [hg, hh] at e; cases e
    | ok b =>
      rw [hg, hh] at e
      injection e with e
      exact ⟨a, b, rfl, rfl, e.symm⟩

theorem Emits.int_inv {i : Int} {bs : List UInt8} (e : Emits (.int i) bs) :
    0 ≤ i ∧ i ≤ 255 ∧ bs = [UInt8.ofNat i.toNat] := by
  by_cases h : 0 ≤ i ∧ i ≤ 255
  · exact ⟨h.1, h.2, e.unique (Emits.int h.1 h.2)⟩
  · simp [Emits, Gen.int, bytearray, itemsToBytes, Item.toByte, h] at e

theorem Emits.packU_inv {k : Nat} {v : Int} {bs : List UInt8}
    (e : Emits (.ofBytes (Verif.packU k v)) bs) : 0 ≤ v ∧ v < 256 ^ k := by
  unfold Verif.packU at e
  by_cases h : 0 ≤ v ∧ v.toNat < 256 ^ k
  · refine ⟨h.1, ?_⟩
    have h' : ((v.toNat : Nat) : Int) < ((256 ^ k : Nat) : Int) := by exact_mod_cast h.2
    rw [Int.toNat_of_nonneg h.1] at h'
    push_cast at h'
    exact h'
  · rw [if_neg h] at e; cases e

theorem Emits.raise_inv {x : PyErr} {bs : List UInt8} (e : Emits (.raise x) bs) : False := by
  cases e

theorem RoundTrips.unique {α : Type} {g : Gen} {p : P α} {y z : α} {n m : Nat}
    (h : RoundTrips g p y n) (h' : RoundTrips g p z m) : y = z ∧ n = m := by
  obtain ⟨a, e, l, r⟩ := h
  obtain ⟨b, e', l', r'⟩ := h'
  rw [e] at e'
  injection e' with e'
  subst e'
  refine ⟨?_, by omega⟩
  have := r []
  rw [r' []] at this
  injection this with h1 h2
  exact h1.symm

/-! ### Status with a receive level above 127 -/

theorem Status.fails {s : Status} (h : s.Ok) (hrx : 127 < s.rxLevel) :
    ∃ bs, Emits s.iter bs ∧ Fails Status.parse .valueError (bytesToBits bs) := by
  obtain ⟨cb, ab, e1, l1, r1, e8, l8, r8, e⟩ := Status.emits h
  refine ⟨_, e, ?_⟩
  · obtain ⟨h1, h2, h3, h4, h5, h6, h7, h8⟩ := h
    have hf := s.flags_spec
    obtain ⟨⟨_, _⟩, _, _⟩ := id h7
    have hcv := CT.compressedValue_eq s.responseTo
    have h2' := h2.1
    have h2'' := h2.2
    have h3' := h3.2
    have h4' := h4.2
    have h5' := h5.2
    have h6' := h6.2
    simp only [bytesToBits_append, bytesToBits_cons, bytesToBits_nil, List.append_nil]
    rw [ofNat_toNat_u8 (by omega), ofNat_toNat_u8 (by omega), ofNat_toNat_u8 (by omega),
      ofNat_toNat_u8 (by omega), ofNat_toNat_u8 (by omega), ofNat_toNat_u8 (by omega), hf.2.2]
    simp only [List.append_assoc]
    refine .bind r1 ?_
    have hs := Reads.sint8 (s.rxLevel - 256) (by omega) (by omega)
    rw [show ((s.rxLevel - 256) % 256).toNat = s.rxLevel.toNat by omega] at hs
    refine .bind hs ?_
    refine .bind (Reads.uintI 8 _ h3.1 (by omega)) ?_
    refine .bind (Reads.uintI 8 _ h4.1 (by omega)) ?_
    refine .bind (.bool _) (.bind (.bool _) (.bind (.bool _) (.bind (.bool _) ?_)))
    refine .bind (.pad _ 4 rfl) ?_
    refine .bind (Reads.uintI 8 _ h5.1 (by omega)) ?_
    refine .bind (Reads.uintI 8 _ h6.1 (by omega)) ?_
    obtain ⟨tb, e7, l7, r7⟩ := CT.codec h7
    have : tb = [UInt8.ofNat s.responseTo.compressedValue.toNat] :=
      Emits.unique e7 (Emits.int (by omega) (by omega))
    rw [this, bytesToBits_cons, bytesToBits_nil, List.append_nil] at r7
    refine .bind r7 ?_
    rw [← List.append_nil (bytesToBits ab)]
    refine .bind r8 (.lift (validate_eq_error.2 ⟨?_, rfl⟩) _)
    rintro ⟨⟨h, -⟩, -⟩
    omega

/-! ### Queries -/

theorem QueryOperand.parse_inv {s s' : St} {q : QueryOperand}
    (h : QueryOperand.parse s = .ok q s') : q.Supported := by
  unfold QueryOperand.parse at h
  simp only [P.bind_ok, P.lift_ok, P.assert_ok, P.bytes_ok, QueryOperand.new,
    validate_eq_ok] at h
  obtain ⟨_, _, _, t, _, _, _, _, ⟨rfl, _⟩, m, _, _, _, _, ⟨rfl, _⟩, p, _, _, cl, _, hl, cv, _,
    ⟨hcv, _⟩, fa, _, _, ⟨_, rfl⟩, _⟩ := h
  refine ⟨rfl, rfl, ?_⟩
  unfold Length.parse Length.new at hl
  simp only [P.bind_ok, P.lift_ok, validate_eq_ok] at hl
  obtain ⟨_, _, _, _, _, _, ⟨⟨h0, _⟩, rfl⟩, _⟩ := hl
  simp only [ords, List.length_map, hcv]
  omega

theorem LoRaWANABP.inRange_of_emits {c : LoRaWANABP} {bs : List UInt8} (e : Emits c.iter bs) :
    c.InRange := by
  unfold LoRaWANABP.iter at e
  obtain ⟨_, _, e, e5, _⟩ := e.append_inv
  obtain ⟨_, _, e, e4, _⟩ := e.append_inv
  obtain ⟨_, _, e, e3, _⟩ := e.append_inv
  obtain ⟨_, _, e, e2, _⟩ := e.append_inv
  have h2 := e2.int_inv
  have h3 := e3.int_inv
  have h4 := e4.packU_inv
  have h5 := e5.packU_inv
  exact ⟨⟨h2.1, h2.2.1⟩, ⟨h3.1, h3.2.1⟩, ⟨h4.1, by omega⟩, h5.1, by omega⟩

theorem LoRaWANOTAA.inRange_of_emits {c : LoRaWANOTAA} {bs : List UInt8} (e : Emits c.iter bs) :
    c.InRange := by
  unfold LoRaWANOTAA.iter at e
  obtain ⟨_, _, e, e3, _⟩ := e.append_inv
  obtain ⟨_, _, e, e2, _⟩ := e.append_inv
  have h2 := e2.int_inv
  have h3 := e3.int_inv
  exact ⟨⟨h2.1, h2.2.1⟩, ⟨h3.1, h3.2.1⟩⟩

end Verif
