import Verif.Lemmas.Basic

/-! Predicates on parsers closed under sequencing: extension stability, error sets, alignment. -/

namespace Verif

variable {α β : Type}

/-- A parser that looks at the stream only through the bits it consumes: a success or an exception
other than `ReadError` depends on the consumed bits only. -/
def Good (p : P α) : Prop := ∀ s, match p s with
  | .ok a s' => ∃ c, s.rest = c ++ s'.rest ∧ s'.pos = s.pos + c.length ∧ Reads p a c
  | .err e s' => ∃ c, s.rest = c ++ s'.rest ∧ s'.pos = s.pos + c.length ∧
      (e ≠ .readError → ∀ pos rest, p ⟨pos, c ++ rest⟩ = .err e ⟨pos + c.length, rest⟩)

namespace Good

theorem pure (a : α) : Good (Pure.pure a : P α) := by
  intro s
  exact ⟨[], rfl, rfl, Reads.pure a⟩

theorem raise (e : PyErr) : Good (P.raise e : P α) := by
  intro s
  exact ⟨[], rfl, rfl, fun _ _ _ => rfl⟩

theorem lift (x : Except PyErr α) : Good (P.lift x) := by
  intro s
  cases x with
  | ok a => exact ⟨[], rfl, rfl, Reads.lift rfl⟩
  | error e => exact ⟨[], rfl, rfl, fun _ _ _ => rfl⟩

theorem assert (c : Prop) [Decidable c] (b : Bool) : Good (P.assert c b) := by
  intro s
  by_cases h : c
  · simp only [P.assert, h, if_true]
    exact ⟨[], rfl, rfl, fun _ _ => by simp [P.assert, h]⟩
  · simp only [P.assert, h, if_false]
    exact ⟨[], rfl, rfl, fun _ _ _ => by simp [P.assert, h]⟩

theorem takeBits (n : Nat) : Good (P.takeBits n) := by
  intro s
  by_cases h : n ≤ s.rest.length
  · simp only [P.takeBits, h, if_true]
    exact ⟨s.rest.take n, by simp, by simp [h], Reads.takeBits _ n (by simp [h])⟩
  · simp only [P.takeBits, h, if_false]
    exact ⟨[], rfl, rfl, fun h => absurd rfl h⟩

theorem bind {p : P α} {f : α → P β} (hp : Good p) (hf : ∀ a, Good (f a)) : Good (p >>= f) := by
  intro s
  have h1 := hp s
  simp only [P.bind_apply]
  cases hps : p s with
  | err e s' =>
    rw [hps] at h1
    obtain ⟨c, e1, e2, e3⟩ := h1
    refine ⟨c, e1, e2, fun hne pos rest => ?_⟩
    simp only [P.bind_apply, e3 hne pos rest]
  | ok a s' =>
    rw [hps] at h1
    obtain ⟨c, e1, e2, e3⟩ := h1
    have h2 := hf a s'
    simp only []
    cases hfs : f a s' with
    | err e s'' =>
      rw [hfs] at h2
      obtain ⟨d, d1, d2, d3⟩ := h2
      refine ⟨c ++ d, by rw [e1, d1, List.append_assoc], by simp [d2, e2, Nat.add_assoc],
        fun hne pos rest => ?_⟩
      simp only [P.bind_apply, List.append_assoc, e3 pos (d ++ rest), d3 hne, List.length_append,
        Nat.add_assoc]
    | ok b s'' =>
      rw [hfs] at h2
      obtain ⟨d, d1, d2, d3⟩ := h2
      exact ⟨c ++ d, by rw [e1, d1, List.append_assoc], by simp [d2, e2, Nat.add_assoc],
        e3.bind d3⟩

theorem uint (n : Nat) : Good (P.uint n) := (takeBits n).bind fun _ => pure _
theorem sint (n : Nat) : Good (P.sint n) := (takeBits n).bind fun _ => pure _
theorem bool : Good P.bool := (takeBits 1).bind fun _ => pure _
theorem pad (n : Nat) : Good (P.pad n) := (takeBits n).bind fun _ => pure _
theorem bytes (n : Nat) : Good (P.bytes n) := (takeBits _).bind fun _ => pure _

theorem opt {p : P α} (c : Bool) (hp : Good p) : Good (P.opt c p) := by
  cases c
  · exact pure none
  · exact hp.bind fun _ => pure _

/-- Inversion of a success. -/
theorem ok {p : P α} (hp : Good p) {s s' : St} {a : α} (h : p s = .ok a s') :
    ∃ c, s.rest = c ++ s'.rest ∧ s'.pos = s.pos + c.length ∧ Reads p a c := by
  have := hp s
  rwa [h] at this

/-- Inversion of an exception. -/
theorem err {p : P α} (hp : Good p) {s s' : St} {e : PyErr} (h : p s = .err e s') :
    ∃ c, s.rest = c ++ s'.rest ∧ s'.pos = s.pos + c.length ∧
      (e ≠ .readError → ∀ pos rest, p ⟨pos, c ++ rest⟩ = .err e ⟨pos + c.length, rest⟩) := by
  have := hp s
  rwa [h] at this

/-- On a proper prefix of what a successful parse consumes, the parser asks for more. -/
theorem short {p : P α} (hp : Good p) {a : α} {d d' : List Bool} (h : Reads p a (d ++ d'))
    (hne : d' ≠ []) (pos : Nat) : ∃ s', p ⟨pos, d⟩ = .err .readError s' := by
  cases hr : p ⟨pos, d⟩ with
  | ok b s' =>
    obtain ⟨c, e1, e2, e3⟩ := hp.ok hr
    simp only at e1
    have hu := Reads.unique (r := []) (r' := s'.rest ++ d') h e3 (by rw [e1]; simp)
    have := congrArg List.length hu.2
    rw [e1] at this
    simp at this
    exact absurd this.2 hne
  | err e s' =>
    by_cases he : e = .readError
    · exact ⟨s', by rw [he]⟩
    · obtain ⟨c, e1, e2, e3⟩ := hp.err hr
      simp only at e1
      have h1 := e3 he 0 (s'.rest ++ d')
      have h2 := h 0 []
      rw [List.append_nil, e1, List.append_assoc, h1] at h2
      cases h2

/-- Success on part of the stream stays the same when bits are appended. -/
theorem ok_append {p : P α} (hp : Good p) {pos : Nat} {r t : List Bool} {a : α} {s' : St}
    (h : p ⟨pos, r⟩ = .ok a s') : p ⟨pos, r ++ t⟩ = .ok a ⟨s'.pos, s'.rest ++ t⟩ := by
  obtain ⟨c, e1, e2, e3⟩ := hp.ok h
  simp only at e1 e2
  rw [e1, List.append_assoc, e3, e2]

/-- So does an exception other than `ReadError`. -/
theorem err_append {p : P α} (hp : Good p) {pos : Nat} {r t : List Bool} {e : PyErr} {s' : St}
    (h : p ⟨pos, r⟩ = .err e s') (he : e ≠ .readError) :
    p ⟨pos, r ++ t⟩ = .err e ⟨s'.pos, s'.rest ++ t⟩ := by
  obtain ⟨c, e1, e2, e3⟩ := hp.err h
  simp only at e1 e2
  rw [e1, List.append_assoc, e3 he, e2]

end Good

/-- Every exception the parser can raise satisfies `E`. -/
def ErrsIn (E : PyErr → Prop) (p : P α) : Prop := ∀ s e s', p s = .err e s' → E e

namespace ErrsIn

variable {E : PyErr → Prop}

theorem pure (a : α) : ErrsIn E (Pure.pure a : P α) := by intro s e s' h; cases h

theorem raise {e : PyErr} (h : E e) : ErrsIn E (P.raise e : P α) := by
  intro s e' s' h'; cases h'; exact h

theorem lift {x : Except PyErr α} (h : ∀ e, x = .error e → E e) : ErrsIn E (P.lift x) := by
  intro s e s' h'
  cases x with
  | ok a => cases h'
  | error e' => cases h'; exact h _ rfl

theorem assert {c : Prop} [Decidable c] {b : Bool} (h : E (.assertion b)) :
    ErrsIn E (P.assert c b) := by
  intro s e s' h'
  unfold P.assert at h'
  split at h' <;> cases h'
  exact h

theorem takeBits {n : Nat} (h : E .readError) : ErrsIn E (P.takeBits n) := by
  intro s e s' h'
  unfold P.takeBits at h'
  split at h' <;> cases h'
  exact h

theorem bind {p : P α} {f : α → P β} (hp : ErrsIn E p) (hf : ∀ a, ErrsIn E (f a)) :
    ErrsIn E (p >>= f) := by
  intro s e s' h
  rw [P.bind_apply] at h
  cases hps : p s with
  | ok a s1 => rw [hps] at h; exact hf a _ _ _ h
  | err e1 s1 => rw [hps] at h; cases h; exact hp _ _ _ hps

theorem uint {n : Nat} (h : E .readError) : ErrsIn E (P.uint n) :=
  (takeBits h).bind fun _ => pure _
theorem sint {n : Nat} (h : E .readError) : ErrsIn E (P.sint n) :=
  (takeBits h).bind fun _ => pure _
theorem bool (h : E .readError) : ErrsIn E P.bool := (takeBits h).bind fun _ => pure _
theorem pad {n : Nat} (h : E .readError) : ErrsIn E (P.pad n) := (takeBits h).bind fun _ => pure _
theorem bytes {n : Nat} (h : E .readError) : ErrsIn E (P.bytes n) :=
  (takeBits h).bind fun _ => pure _

theorem opt {p : P α} (c : Bool) (hp : ErrsIn E p) : ErrsIn E (P.opt c p) := by
  cases c
  · exact pure none
  · exact hp.bind fun _ => pure _

end ErrsIn

/-- On success the parser advances by `k` modulo 8 bits, and at least by `n`. -/
def Adv (p : P α) (k n : Nat) : Prop :=
  ∀ s a s', p s = .ok a s' → s'.pos % 8 = (s.pos + k) % 8 ∧ s.pos + n ≤ s'.pos

namespace Adv

theorem pure (a : α) : Adv (Pure.pure a : P α) 0 0 := by intro s a s' h; cases h; simp

theorem raise {e : PyErr} {k n : Nat} : Adv (P.raise e : P α) k n := by
  intro s a s' h; cases h

theorem lift (x : Except PyErr α) : Adv (P.lift x) 0 0 := by
  intro s a s' h
  cases x with
  | ok a => cases h; simp
  | error e => cases h

theorem assert (c : Prop) [Decidable c] (b : Bool) : Adv (P.assert c b) 0 0 := by
  intro s a s' h
  unfold P.assert at h
  split at h <;> cases h
  simp

theorem takeBits (m : Nat) : Adv (P.takeBits m) m m := by
  intro s a s' h
  unfold P.takeBits at h
  split at h <;> cases h
  simp

theorem bind {p : P α} {f : α → P β} {k n k' n' : Nat} (hp : Adv p k n)
    (hf : ∀ a, Adv (f a) k' n') : Adv (p >>= f) (k + k') (n + n') := by
  intro s b s' h
  rw [P.bind_apply] at h
  cases hps : p s with
  | err e1 s1 => rw [hps] at h; cases h
  | ok a s1 =>
    rw [hps] at h
    have h1 := hp _ _ _ hps
    have h2 := hf _ _ _ _ h
    omega

theorem weaken {p : P α} {k n k' n' : Nat} (hp : Adv p k n) (hk : k % 8 = k' % 8) (hn : n' ≤ n) :
    Adv p k' n' := by
  intro s a s' h
  have := hp _ _ _ h
  omega

theorem uint (n : Nat) : Adv (P.uint n) n n := (takeBits n).bind fun _ => pure _
theorem sint (n : Nat) : Adv (P.sint n) n n := (takeBits n).bind fun _ => pure _
theorem bool : Adv P.bool 1 1 := (takeBits 1).bind fun _ => pure _
theorem pad (n : Nat) : Adv (P.pad n) n n := (takeBits n).bind fun _ => pure _
theorem bytes (n : Nat) : Adv (P.bytes n) 0 0 :=
  weaken ((takeBits (8 * n)).bind fun _ => pure _) (by omega) (by omega)

theorem opt {p : P α} (c : Bool) (hp : Adv p 0 0) : Adv (P.opt c p) 0 0 := by
  cases c
  · exact pure none
  · exact hp.bind fun _ => pure _

end Adv
end Verif
