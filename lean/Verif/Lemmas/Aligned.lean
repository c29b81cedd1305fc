import Verif.Lemmas.AlpAdv
import Verif.Lemmas.Invert

/-! Parsers on byte-aligned streams. -/

namespace Verif

variable {α β γ : Type}

/-- On an aligned stream, `p` reads the given bits (whole bytes) and continues as `q`. -/
def Leads (p q : P α) (bits : List Bool) : Prop :=
  bits.length % 8 = 0 ∧ ∀ pos rest, pos % 8 = 0 → p ⟨pos, bits ++ rest⟩ = q ⟨pos + bits.length, rest⟩

namespace Leads

theorem refl (p : P α) : Leads p p [] := ⟨rfl, fun _ _ _ => rfl⟩

theorem of {p : P α} {a : α} {l : List Bool} (h : Reads p a l) (hl : l.length % 8 = 0) :
    Leads p (Pure.pure a) l := ⟨hl, fun pos rest _ => h pos rest⟩

theorem bind {p : P α} {f : α → P β} {a : α} {q : P β} {l m : List Bool}
    (h : Leads p (Pure.pure a) l) (h' : Leads (f a) q m) : Leads (p >>= f) q (l ++ m) := by
  refine ⟨by rw [List.length_append]; have := h.1; have := h'.1; omega, fun pos rest hp => ?_⟩
  rw [P.bind_apply, List.append_assoc, h.2 pos _ hp, P.pure_apply]
  simp only []
  rw [h'.2 _ _ (by have := h.1; omega), List.length_append, Nat.add_assoc]

theorem bind0 {p : P α} {f : α → P β} {a : α} {q : P β} {m : List Bool}
    (h : Leads p (Pure.pure a) []) (h' : Leads (f a) q m) : Leads (p >>= f) q m := by
  simpa using bind h h'

theorem congr {p q : P α} {l m : List Bool} (h : Leads p q l) (e : m = l) : Leads p q m := e ▸ h

theorem trans {p q r : P α} {l m : List Bool} (h : Leads p q l) (h' : Leads q r m) :
    Leads p r (l ++ m) := by
  refine ⟨by rw [List.length_append]; have := h.1; have := h'.1; omega, fun pos rest hp => ?_⟩
  rw [List.append_assoc, h.2 pos _ hp, h'.2 _ _ (by have := h.1; omega), List.length_append,
    Nat.add_assoc]

end Leads

/-- `Good` on aligned streams, and consuming whole bytes. -/
def GoodA (p : P α) : Prop := ∀ s : St, s.pos % 8 = 0 → match p s with
  | .ok a s' => ∃ c, s.rest = c ++ s'.rest ∧ s'.pos = s.pos + c.length ∧ Leads p (Pure.pure a) c
  | .err e s' => ∃ c, s.rest = c ++ s'.rest ∧ s'.pos = s.pos + c.length ∧
      (e ≠ .readError → ∀ pos rest, pos % 8 = 0 →
        p ⟨pos, c ++ rest⟩ = .err e ⟨pos + c.length, rest⟩)

namespace GoodA

theorem of {p : P α} (hg : Good p) (ha : Adv p 0 0) : GoodA p := by
  intro s hs
  have h := hg s
  cases hp : p s with
  | ok a s' =>
    rw [hp] at h
    obtain ⟨c, e1, e2, e3⟩ := h
    have := (ha _ _ _ hp).1
    refine ⟨c, e1, e2, Leads.of e3 ?_⟩
    omega
  | err e s' =>
    rw [hp] at h
    obtain ⟨c, e1, e2, e3⟩ := h
    exact ⟨c, e1, e2, fun hne pos rest _ => e3 hne pos rest⟩

theorem bind {p : P α} {f : α → P β} (hp : GoodA p) (hf : ∀ a, GoodA (f a)) : GoodA (p >>= f) := by
  intro s hs
  have h1 := hp s hs
  simp only [P.bind_apply]
  cases hps : p s with
  | err e s' =>
    rw [hps] at h1
    obtain ⟨c, e1, e2, e3⟩ := h1
    refine ⟨c, e1, e2, fun hne pos rest hpos => ?_⟩
    simp only [P.bind_apply, e3 hne pos rest hpos]
  | ok a s' =>
    rw [hps] at h1
    obtain ⟨c, e1, e2, e3⟩ := h1
    have h2 := hf a s' (by have := e3.1; omega)
    simp only []
    cases hfs : f a s' with
    | err e s'' =>
      rw [hfs] at h2
      obtain ⟨d, d1, d2, d3⟩ := h2
      refine ⟨c ++ d, by rw [e1, d1, List.append_assoc], by simp [d2, e2, Nat.add_assoc],
        fun hne pos rest hpos => ?_⟩
      simp only [P.bind_apply, List.append_assoc, e3.2 pos (d ++ rest) hpos, P.pure_apply,
        d3 hne _ _ (show (pos + c.length) % 8 = 0 by have := e3.1; omega), List.length_append,
        Nat.add_assoc]
    | ok b s'' =>
      rw [hfs] at h2
      obtain ⟨d, d1, d2, d3⟩ := h2
      exact ⟨c ++ d, by rw [e1, d1, List.append_assoc], by simp [d2, e2, Nat.add_assoc],
        e3.bind d3⟩

theorem opt {p : P α} (c : Bool) (hp : GoodA p) : GoodA (P.opt c p) := by
  cases c
  · exact of (Good.pure none) (Adv.pure none)
  · exact hp.bind fun _ => of (Good.pure _) (Adv.pure _)

theorem pure (a : α) : GoodA (Pure.pure a : P α) := of (Good.pure a) (Adv.pure a)
theorem lift (x : Except PyErr α) : GoodA (P.lift x) := of (Good.lift x) (Adv.lift x)
theorem assert (c : Prop) [Decidable c] (b : Bool) : GoodA (P.assert c b) :=
  of (Good.assert c b) (Adv.assert c b)
theorem raise (e : PyErr) : GoodA (P.raise e : P α) := of (Good.raise e) Adv.raise
theorem bytes (n : Nat) : GoodA (P.bytes n) := of (Good.bytes n) (Adv.bytes n)
theorem uint (n : Nat) (h : n % 8 = 0) : GoodA (P.uint n) :=
  of (Good.uint n) ((Adv.uint n).weaken (by omega) (by omega))
theorem sint (n : Nat) (h : n % 8 = 0) : GoodA (P.sint n) :=
  of (Good.sint n) ((Adv.sint n).weaken (by omega) (by omega))

theorem alp (n : Int) : GoodA (AlpParser.parse n) := by
  intro s hs
  have h := AlpParser.parse_spec n s hs
  cases hp : AlpParser.parse n s with
  | ok a s' =>
    rw [hp] at h
    obtain ⟨c, e1, e2, e3, -, e4⟩ := h
    exact ⟨c, e1, e2, e3, e4⟩
  | err e s' =>
    rw [hp] at h
    obtain ⟨c, e1, e2, -, e4⟩ := h
    exact ⟨c, e1, e2, e4⟩

theorem ok {p : P α} (hp : GoodA p) {s s' : St} {a : α} (hs : s.pos % 8 = 0) (h : p s = .ok a s') :
    ∃ c, s.rest = c ++ s'.rest ∧ s'.pos = s.pos + c.length ∧ Leads p (Pure.pure a) c := by
  have := hp s hs
  rwa [h] at this

theorem err {p : P α} (hp : GoodA p) {s s' : St} {e : PyErr} (hs : s.pos % 8 = 0)
    (h : p s = .err e s') :
    ∃ c, s.rest = c ++ s'.rest ∧ s'.pos = s.pos + c.length ∧
      (e ≠ .readError → ∀ pos rest, pos % 8 = 0 →
        p ⟨pos, c ++ rest⟩ = .err e ⟨pos + c.length, rest⟩) := by
  have := hp s hs
  rwa [h] at this

/-- The outcome on a byte string, a success: the bytes it read, and the same on every other
continuation. -/
theorem ok_bytes {p : P α} (hp : GoodA p) {bs : List UInt8} {s' : St} {a : α}
    (h : p (stream bs) = .ok a s') : ∃ d r, bs = d ++ r ∧ s' = ⟨8 * d.length, bytesToBits r⟩ ∧
      ∀ r', p (stream (d ++ r')) = .ok a ⟨8 * d.length, bytesToBits r'⟩ := by
  obtain ⟨c, e1, e2, e3, e4⟩ := hp.ok (s := stream bs) rfl h
  simp only [stream] at e1 e2
  have hlen := congrArg List.length e1
  simp only [bytesToBits_length, List.length_append] at hlen
  have hc : c = bytesToBits (bs.take (c.length / 8)) := by
    have h1 : bytesToBits bs = bytesToBits (bs.take (c.length / 8)) ++
        bytesToBits (bs.drop (c.length / 8)) := by
      rw [← bytesToBits_append, List.take_append_drop]
    rw [e1] at h1
    refine List.append_inj_left h1 ?_
    simp only [bytesToBits_length, List.length_take]
    omega
  have hr : s'.rest = bytesToBits (bs.drop (c.length / 8)) := by
    have h1 : bytesToBits bs = bytesToBits (bs.take (c.length / 8)) ++
        bytesToBits (bs.drop (c.length / 8)) := by
      rw [← bytesToBits_append, List.take_append_drop]
    rw [e1] at h1
    refine List.append_inj_right h1 ?_
    simp only [bytesToBits_length, List.length_take]
    omega
  have hl : (bs.take (c.length / 8)).length = c.length / 8 := by
    rw [List.length_take]; omega
  refine ⟨bs.take (c.length / 8), bs.drop (c.length / 8), by simp, ?_, fun r' => ?_⟩
  · obtain ⟨pos, rest⟩ := s'
    simp only at e2 hr
    rw [hr, e2, hl]
    congr 1
    omega
  · have := e4 0 (bytesToBits r') rfl
    rw [hl]
    unfold stream
    rw [bytesToBits_append, ← hc, this, P.pure_apply]
    congr 2
    omega

/-- The outcome on a byte string, an exception other than ReadError: the same when more bytes
follow. -/
theorem err_bytes {p : P α} (hp : GoodA p) {bs : List UInt8} {s' : St} {e : PyErr}
    (h : p (stream bs) = .err e s') (he : e ≠ .readError) (more : List UInt8) :
    ∃ s'', p (stream (bs ++ more)) = .err e s'' := by
  obtain ⟨c, e1, e2, e3⟩ := hp.err (s := stream bs) rfl h
  simp only [stream] at e1
  unfold stream
  rw [bytesToBits_append, e1, List.append_assoc]
  exact ⟨_, e3 he _ _ rfl⟩

/-- A proper prefix of the bytes a successful parse reads: the parser asks for more. -/
theorem short_bytes {p : P α} (hp : GoodA p) {d d' : List UInt8} {a : α} {s' : St}
    (h : p (stream (d ++ d')) = .ok a ⟨8 * (d ++ d').length, s'.rest⟩) (hne : d' ≠ []) :
    ∃ s, p (stream d) = .err .readError s := by
  cases hr : p (stream d) with
  | ok b s =>
    obtain ⟨x, r, e1, e2, e3⟩ := hp.ok_bytes hr
    have := e3 (r ++ d')
    rw [← List.append_assoc, ← e1, h] at this
    injection this with _ h2
    injection h2 with h3 _
    have h4 := congrArg List.length e1
    have h5 : d'.length ≠ 0 := by simpa using hne
    rw [List.length_append] at h3 h4
    omega
  | err e s =>
    by_cases he : e = .readError
    · exact ⟨s, by rw [he]⟩
    · obtain ⟨s'', h2⟩ := hp.err_bytes hr he d'
      rw [h] at h2
      cases h2

end GoodA

end Verif
