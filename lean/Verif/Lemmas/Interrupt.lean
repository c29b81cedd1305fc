import Verif.Spec.Interrupt
import Verif.Lemmas.CallersAlone
import Verif.Lemmas.Gateway

/-! Lemmas for C85. -/

namespace Verif.Modem.Ir

open Verif Verif.Serial

/-- What the handler has done when it is at this place, with the bytes `W` before it and its frame `F`. -/
def At (i : Nat) (W F : List UInt8) (up : Int) (s : Callers) (f : List UInt8) : Place → Prop
  | .counter => s.inner.written = W ∧ s.inner.parser.upCounter = up ∧ s.lock = none
  | .writing r => f = F ∧ s.inner.written ++ r = W ++ F ∧ s.lock = some i
  | .wait => f = F ∧ s.inner.written = W ++ F ∧ s.lock = none
  | .final => f = F ∧ s.inner.written = W ++ F ∧ s.lock = none
  | .ret => f = F ∧ s.inner.written = W ++ F ∧ s.lock = none
  | .resetCompleted => f = F ∧ s.inner.written = W ∧ s.lock = none ∧ s.inner.tag = none
  | .check => f = F ∧ s.inner.written = W ∧ s.lock = none ∧ s.inner.tag = none
  | _ => f = F ∧ s.inner.written = W ∧ s.lock = none

/-- An upper bound for the steps left. -/
def rank (f : List UInt8) : Place → Nat
  | .counter => 22 + f.length
  | .load => 14 + f.length
  | .store _ => 13 + f.length
  | .test => 12 + f.length
  | .reset => 11 + f.length
  | .resetList => 10 + f.length
  | .resetTag => 9 + f.length
  | .resetCompleted => 8 + f.length
  | .check => 7 + f.length
  | .setTag => 6 + f.length
  | .acquire => 5 + f.length
  | .writing r => 4 + r.length
  | .wait => 3
  | .final => 2
  | .ret => 1

/-- The handler is at work, or it has finished. -/
inductive Inv (i : Nat) (c : Command) (bs : List UInt8) (t : Int) (W F : List UInt8) (up : Int)
    (R : List (Nat × Outcome)) (s : Callers) : Nat → Prop
  | run (p : Place) (f : List UInt8) (n : Nat) : s.threads[i]? = some (.run p c bs f t) → s.results = R →
      At i W F up s f p → (p = .counter → n = 22 + bs.length) → (p ≠ .counter → n = rank F p) → Inv i c bs t W F up R s n
  | idle (o : Outcome) : s.threads[i]? = some .idle → s.results = R ++ [(i, o)] → (o = .empty ∨ ∃ k, o = .list k) →
      s.inner.written = W ++ F → s.lock = none → Inv i c bs t W F up R s 0

theorem at_keeps {i : Nat} {W F : List UInt8} {up : Int} {s : Callers} {x : State} {f : List UInt8} {p : Place}
    (h : At i W F up s f p) (hk : Keeps s.inner x) : At i W F up { s with inner := x } f p := by
  obtain ⟨-, k2, k3, k4, -⟩ := hk
  cases p <;> simp only [At] at h ⊢ <;> first | (rw [k3, k2]; exact h) | (rw [k3, k4]; exact h) | (rw [k3]; exact h)

theorem inv_keeps {i : Nat} {c : Command} {bs : List UInt8} {t : Int} {W F : List UInt8} {up : Int}
    {R : List (Nat × Outcome)} {s : Callers} {x : State} {n : Nat} (h : Inv i c bs t W F up R s n)
    (hk : Keeps s.inner x) : Inv i c bs t W F up R { s with inner := x } n := by
  cases h with
  | run p f n h1 h2 h3 h4 h5 => exact .run p f n h1 h2 (at_keeps h3 hk) h4 h5
  | idle o h1 h2 h3 h4 h5 => exact .idle o h1 h2 h3 (by simpa [hk.2.2.1] using h4) h5

theorem head_exists {up : Int} (h0 : 0 ≤ up) (h1 : up ≤ 255) {bs : List UInt8} (hb : bs.length ≤ 255) :
    ∃ head, bytearray (.int 0xC0 ++ .int 0 ++ .int up ++ .int 1 ++ .int bs.length) = .ok head := by
  exact ⟨_, ((((Emits.int (i := 0xC0) (by decide) (by decide)).append
    (Emits.int (i := 0) (by decide) (by decide))).append (Emits.int h0 h1)).append
    (Emits.int (i := 1) (by decide) (by decide))).append (Emits.int (by omega) (by omega))⟩

theorem set_get {l : List Thread} {i : Nat} {x y : Thread} (h : l[i]? = some y) : (l.set i x)[i]? = some x := by
  rw [getElem?_set' h]; simp

theorem inv_step {i : Nat} {c : Command} {bs : List UInt8} (hb : bs.length ≤ 255) {t : Int} {W : List UInt8} {up : Int}
    (h0 : 0 ≤ up) (h1 : up ≤ 255) {R : List (Nat × Outcome)} {s s' : Callers} {n : Nat} {e : CallersEvent}
    (he : During i e) (h : Inv i c bs t W (frame (UInt8.ofNat up.toNat) 1 bs) up R s n) (hs : s.step e = some s') :
    ∃ n', Inv i c bs t W (frame (UInt8.ofNat up.toNat) 1 bs) up R s' n' ∧ n' + (if Moves i e then 1 else 0) ≤ n := by
  cases e with
  | call _ _ _ => exact he.elim
  | rx b =>
    obtain ⟨x, hx, rfl⟩ := Option.map_eq_some_iff.1 hs
    exact ⟨n, inv_keeps h (inner_keeps.1 _ hx), by simp [Moves]⟩
  | reader =>
    simp only [Callers.step] at hs
    split at hs
    · obtain ⟨x, hx, rfl⟩ := Option.map_eq_some_iff.1 hs
      exact ⟨n, inv_keeps h (inner_keeps.2.1 hx), by simp [Moves]⟩
    · cases hs
  | callbackRaises =>
    simp only [Callers.step] at hs
    split at hs
    · obtain ⟨x, hx, rfl⟩ := Option.map_eq_some_iff.1 hs
      exact ⟨n, inv_keeps h (inner_keeps.2.2.1 hx), by simp [Moves]⟩
    · cases hs
  | serialError =>
    obtain ⟨x, hx, rfl⟩ := Option.map_eq_some_iff.1 hs
    exact ⟨n, inv_keeps h (inner_keeps.2.2.2 hx), by simp [Moves]⟩
  | timeout j =>
    cases he
    simp only [Callers.step, Callers.timeoutStep] at hs
    cases h with
    | idle o g1 => rw [g1] at hs; cases hs
    | run p f n g1 g2 g3 g4 g5 =>
      rw [g1] at hs
      cases p <;> simp only [reduceCtorEq, Option.some.injEq] at hs
      subst hs
      exact ⟨2, .run .final f 2 (set_get g1) g2 g3 (by simp) (by simp [rank]), by
        rw [g5 (by simp)]; simp [Moves, rank]⟩
  | step j =>
    cases he
    simp only [Callers.step, Callers.threadStep] at hs
    have hm : (if Moves i (.step i) then 1 else 0) = 1 := by simp [Moves]
    rw [hm]
    cases h with
    | idle o g1 => rw [g1] at hs; cases hs
    | run p f n g1 g2 g3 g4 g5 =>
      rw [g1] at hs
      have hF : (frame (UInt8.ofNat up.toNat) 1 bs).length = 7 + bs.length := by simp [frame]; omega
      cases p with
      | counter =>
        obtain ⟨a1, a2, a3⟩ := g3
        obtain ⟨head, hh⟩ := head_exists h0 h1 hb
        have := (head_frame hh).2.2.2
        simp only [a2, hh, Option.some.injEq] at hs
        subst hs
        exact ⟨_, .run .load _ _ (set_get g1) g2 ⟨this, a1, a3⟩ (by simp) (fun _ => rfl), by
          rw [g4 rfl]; simp only [rank, hF]; omega⟩
      | load =>
        simp only [Option.some.injEq] at hs
        subst hs
        exact ⟨_, .run (.store _) _ _ (set_get g1) g2 g3 (by simp) (fun _ => rfl), by
          rw [g5 (by simp)]; simp only [rank]; omega⟩
      | store v =>
        simp only [Option.some.injEq] at hs
        subst hs
        exact ⟨_, .run .test _ _ (set_get g1) g2 g3 (by simp) (fun _ => rfl), by
          rw [g5 (by simp)]; simp only [rank]; omega⟩
      | test =>
        simp only [Option.some.injEq] at hs
        subst hs
        by_cases hc : s.inner.parser.upCounter > 255
        · rw [if_pos hc]
          exact ⟨_, .run .reset _ _ (set_get g1) g2 g3 (by simp) (fun _ => rfl), by
            rw [g5 (by simp)]; simp only [rank]; omega⟩
        · rw [if_neg hc]
          exact ⟨_, .run .resetList _ _ (set_get g1) g2 g3 (by simp) (fun _ => rfl), by
            rw [g5 (by simp)]; simp only [rank]; omega⟩
      | reset =>
        simp only [Option.some.injEq] at hs
        subst hs
        exact ⟨_, .run .resetList _ _ (set_get g1) g2 g3 (by simp) (fun _ => rfl), by
          rw [g5 (by simp)]; simp only [rank]; omega⟩
      | resetList =>
        simp only [Option.some.injEq] at hs
        subst hs
        exact ⟨_, .run .resetTag _ _ (set_get g1) g2 g3 (by simp) (fun _ => rfl), by
          rw [g5 (by simp)]; simp only [rank]; omega⟩
      | resetTag =>
        simp only [Option.some.injEq] at hs
        subst hs
        obtain ⟨a1, a2, a3⟩ := g3
        exact ⟨_, .run .resetCompleted _ _ (set_get g1) g2 ⟨a1, a2, a3, rfl⟩ (by simp) (fun _ => rfl), by
          rw [g5 (by simp)]; simp only [rank]; omega⟩
      | resetCompleted =>
        simp only [Option.some.injEq] at hs
        subst hs
        obtain ⟨a1, a2, a3, a4⟩ := g3
        by_cases hc : t > 0
        · rw [if_pos hc]
          exact ⟨_, .run .check _ _ (set_get g1) g2 ⟨a1, a2, a3, a4⟩ (by simp) (fun _ => rfl), by
            rw [g5 (by simp)]; simp only [rank]; omega⟩
        · rw [if_neg hc]
          exact ⟨_, .run .acquire _ _ (set_get g1) g2 ⟨a1, a2, a3⟩ (by simp) (fun _ => rfl), by
            rw [g5 (by simp)]; simp only [rank]; omega⟩
      | check =>
        obtain ⟨a1, a2, a3, a4⟩ := g3
        simp only [a4, if_true, Option.some.injEq] at hs
        subst hs
        exact ⟨_, .run .setTag _ _ (set_get g1) g2 ⟨a1, a2, a3⟩ (by simp) (fun _ => rfl), by
          rw [g5 (by simp)]; simp only [rank]; omega⟩
      | setTag =>
        simp only [Option.some.injEq] at hs
        subst hs
        exact ⟨_, .run .acquire _ _ (set_get g1) g2 g3 (by simp) (fun _ => rfl), by
          rw [g5 (by simp)]; simp only [rank]; omega⟩
      | acquire =>
        obtain ⟨a1, a2, a3⟩ := g3
        simp only [a3, if_true, Option.some.injEq] at hs
        subst hs
        exact ⟨_, .run (.writing f) _ _ (set_get g1) g2 ⟨a1, by simp [Callers.goto, a1, a2], rfl⟩ (by simp) (fun _ => rfl), by
          rw [g5 (by simp)]; simp only [rank, a1]; omega⟩
      | writing r =>
        obtain ⟨a1, a2, a3⟩ := g3
        cases r with
        | cons b r =>
          simp only [Option.some.injEq] at hs
          subst hs
          exact ⟨_, .run (.writing r) _ _ (set_get g1) g2 ⟨a1, by simpa [Callers.goto] using a2, a3⟩ (by simp) (fun _ => rfl), by
            rw [g5 (by simp)]; simp only [rank, List.length_cons]; omega⟩
        | nil =>
          simp only [List.append_nil] at a2
          simp only at hs
          split at hs
          · simp only [Option.some.injEq] at hs
            subst hs
            exact ⟨0, .idle .empty (set_get g1) (by simp [Callers.finish, g2]) (.inl rfl) a2 rfl, by
              rw [g5 (by simp)]; simp [rank]⟩
          · simp only [Option.some.injEq] at hs
            subst hs
            exact ⟨_, .run .wait _ _ (set_get g1) g2 ⟨a1, a2, rfl⟩ (by simp) (fun _ => rfl), by
              rw [g5 (by simp)]; simp [rank]⟩
      | wait =>
        simp only at hs
        split at hs
        · simp only [Option.some.injEq] at hs
          subst hs
          exact ⟨_, .run .final _ _ (set_get g1) g2 g3 (by simp) (fun _ => rfl), by
            rw [g5 (by simp)]; simp [rank]⟩
        · cases hs
      | final =>
        simp only at hs
        split at hs
        · simp only [Option.some.injEq] at hs
          subst hs
          exact ⟨_, .run .ret _ _ (set_get g1) g2 g3 (by simp) (fun _ => rfl), by
            rw [g5 (by simp)]; simp [rank]⟩
        · simp only [Option.some.injEq] at hs
          subst hs
          exact ⟨0, .idle .empty (set_get g1) (by simp [Callers.finish, g2]) (.inl rfl) g3.2.1 g3.2.2, by
            rw [g5 (by simp)]; simp [rank]⟩
      | ret =>
        simp only [Option.some.injEq] at hs
        subst hs
        exact ⟨0, .idle (.list (s.inner.responses.length - 1)) (set_get g1) (by simp [Callers.finish, g2]) (.inr ⟨_, rfl⟩) g3.2.1 g3.2.2, by
          rw [g5 (by simp)]; simp [rank]⟩

theorem inv_run {i : Nat} {c : Command} {bs : List UInt8} (hb : bs.length ≤ 255) {t : Int} {W : List UInt8} {up : Int}
    (h0 : 0 ≤ up) (h1 : up ≤ 255) {R : List (Nat × Outcome)} {es : List CallersEvent} : ∀ {s s' : Callers} {n : Nat},
    (∀ e ∈ es, During i e) → Inv i c bs t W (frame (UInt8.ofNat up.toNat) 1 bs) up R s n → s.run es = some s' →
    ∃ n', Inv i c bs t W (frame (UInt8.ofNat up.toNat) 1 bs) up R s' n' ∧ n' + es.countP (Moves i) ≤ n := by
  induction es with
  | nil => intro s s' n _ h hr; cases hr; exact ⟨n, h, by simp⟩
  | cons e es ih =>
    intro s s' n he h hr
    obtain ⟨s1, hs, hr⟩ := Option.bind_eq_some_iff.1 hr
    obtain ⟨n1, k1, k2⟩ := inv_step hb h0 h1 (he e (by simp)) h hs
    obtain ⟨n2, k3, k4⟩ := ih (fun e h => he e (by simp [h])) k1 hr
    refine ⟨n2, k3, ?_⟩
    rw [List.countP_cons]
    omega

/-! ### A handler that cannot get the lock -/

/-- The handler has not written anything. -/
def Waiting (i : Nat) (c : Command) (bs : List UInt8) (t : Int) (W : List UInt8) (up : Int) (R : List (Nat × Outcome))
    (j : Nat) (s : Callers) : Prop :=
  s.results = R ∧ s.inner.written = W ∧ s.lock = some j ∧ ∃ p f, s.threads[i]? = some (.run p c bs f t) ∧
    p ≠ .wait ∧ p ≠ .final ∧ p ≠ .ret ∧ p.isWriting = false ∧ (p = .counter → s.inner.parser.upCounter = up) ∧
    (p = .resetCompleted ∨ p = .check → s.inner.tag = none)

theorem waiting_step {i j : Nat} {c : Command} {bs : List UInt8} (hb : bs.length ≤ 255) {t : Int} {W : List UInt8}
    {up : Int} (h0 : 0 ≤ up) (h1 : up ≤ 255) {R : List (Nat × Outcome)} {s s' : Callers} {e : CallersEvent}
    (he : During i e) (h : Waiting i c bs t W up R j s) (hs : s.step e = some s') : Waiting i c bs t W up R j s' := by
  obtain ⟨g1, g2, g3, p, f, g4, g5, g6, g7, g8, g9, g10⟩ := h
  have keep : ∀ x, Keeps s.inner x → Waiting i c bs t W up R j { s with inner := x } := by
    intro x ⟨k1, k2, k3, k4, k5⟩
    exact ⟨g1, by simpa [k3] using g2, g3, p, f, g4, g5, g6, g7, g8, fun hp => by simpa [k2] using g9 hp,
      fun hp => by simpa [k4] using g10 hp⟩
  cases e with
  | call _ _ _ => exact he.elim
  | rx b =>
    obtain ⟨x, hx, rfl⟩ := Option.map_eq_some_iff.1 hs
    exact keep x (inner_keeps.1 _ hx)
  | reader =>
    simp only [Callers.step] at hs
    split at hs
    · obtain ⟨x, hx, rfl⟩ := Option.map_eq_some_iff.1 hs
      exact keep x (inner_keeps.2.1 hx)
    · cases hs
  | callbackRaises =>
    simp only [Callers.step] at hs
    split at hs
    · obtain ⟨x, hx, rfl⟩ := Option.map_eq_some_iff.1 hs
      exact keep x (inner_keeps.2.2.1 hx)
    · cases hs
  | serialError =>
    obtain ⟨x, hx, rfl⟩ := Option.map_eq_some_iff.1 hs
    exact keep x (inner_keeps.2.2.2 hx)
  | timeout k =>
    cases he
    simp only [Callers.step, Callers.timeoutStep, g4] at hs
    cases p <;> first | (cases hs; done) | exact absurd rfl g5
  | step k =>
    cases he
    simp only [Callers.step, Callers.threadStep, g4] at hs
    cases p with
    | counter =>
      obtain ⟨head, hh⟩ := head_exists h0 h1 hb
      simp only [g9 rfl, hh, Option.some.injEq] at hs
      subst hs
      exact ⟨g1, g2, g3, .load, _, set_get g4, by simp, by simp, by simp, rfl, by simp, by simp⟩
    | load =>
      simp only [Option.some.injEq] at hs
      subst hs
      exact ⟨g1, g2, g3, _, _, set_get g4, by simp, by simp, by simp, rfl, by simp, by simp⟩
    | store v =>
      simp only [Option.some.injEq] at hs
      subst hs
      exact ⟨g1, g2, g3, _, _, set_get g4, by simp, by simp, by simp, rfl, by simp, by simp⟩
    | test =>
      simp only [Option.some.injEq] at hs
      subst hs
      refine ⟨g1, g2, g3, _, _, set_get g4, ?_, ?_, ?_, ?_, ?_, ?_⟩ <;> split <;> simp [Place.isWriting]
    | reset =>
      simp only [Option.some.injEq] at hs
      subst hs
      exact ⟨g1, g2, g3, _, _, set_get g4, by simp, by simp, by simp, rfl, by simp, by simp⟩
    | resetList =>
      simp only [Option.some.injEq] at hs
      subst hs
      exact ⟨g1, g2, g3, _, _, set_get g4, by simp, by simp, by simp, rfl, by simp, by simp⟩
    | resetTag =>
      simp only [Option.some.injEq] at hs
      subst hs
      exact ⟨g1, g2, g3, _, _, set_get g4, by simp, by simp, by simp, rfl, by simp, fun _ => rfl⟩
    | resetCompleted =>
      simp only [Option.some.injEq] at hs
      subst hs
      refine ⟨g1, g2, g3, _, _, set_get g4, ?_, ?_, ?_, ?_, ?_, fun _ => g10 (.inl rfl)⟩ <;> split <;>
        simp [Place.isWriting]
    | check =>
      simp only [g10 (.inr rfl), if_true, Option.some.injEq] at hs
      subst hs
      exact ⟨g1, g2, g3, _, _, set_get g4, by simp, by simp, by simp, rfl, by simp, by simp⟩
    | setTag =>
      simp only [Option.some.injEq] at hs
      subst hs
      exact ⟨g1, g2, g3, _, _, set_get g4, by simp, by simp, by simp, rfl, by simp, by simp⟩
    | acquire => simp [g3] at hs
    | writing r => cases g8
    | wait => exact absurd rfl g5
    | final => exact absurd rfl g6
    | ret => exact absurd rfl g7

theorem waiting_run {i j : Nat} {c : Command} {bs : List UInt8} (hb : bs.length ≤ 255) {t : Int} {W : List UInt8}
    {up : Int} (h0 : 0 ≤ up) (h1 : up ≤ 255) {R : List (Nat × Outcome)} {es : List CallersEvent} : ∀ {s s' : Callers},
    (∀ e ∈ es, During i e) → Waiting i c bs t W up R j s → s.run es = some s' → Waiting i c bs t W up R j s' := by
  induction es with
  | nil => intro s s' _ h hr; cases hr; exact h
  | cons e es ih =>
    intro s s' he h hr
    obtain ⟨s1, hs, hr⟩ := Option.bind_eq_some_iff.1 hr
    exact ih (fun e h => he e (by simp [h])) (waiting_step hb h0 h1 (he e (by simp)) h hs) hr

/-! ### A handler that cannot build its frame -/

/-- The handler is about to build its frame, or it has raised. -/
def Raising (i : Nat) (c : Command) (bs : List UInt8) (t : Int) (W : List UInt8) (up : Int) (R : List (Nat × Outcome))
    (s : Callers) : Prop :=
  s.inner.written = W ∧ (s.threads[i]? = some (.run .counter c bs [] t) ∧ s.results = R ∧
    s.inner.parser.upCounter = up ∨ s.threads[i]? = some .idle ∧ s.results = R ++ [(i, .raised .valueError)])

theorem head_error {up : Int} (h : 255 < up) (n : Int) :
    bytearray (.int 0xC0 ++ .int 0 ++ .int up ++ .int 1 ++ .int n) = .error .valueError := by
  have : bytearray (.int up) = .error .valueError := by
    have : ¬ (up ≤ 255) := by omega
    simp [Gen.int, bytearray, itemsToBytes, Item.toByte, this]
  have hh : Emits (.int 0xC0 ++ .int 0) ([0xC0] ++ [0]) :=
    (Emits.int (i := 0xC0) (by decide) (by decide)).append (Emits.int (i := 0) (by decide) (by decide))
  unfold Emits at hh
  rw [bytearray_append, bytearray_append, bytearray_append, hh, this]
  rfl

theorem raising_step {i : Nat} {c : Command} {bs : List UInt8} {t : Int} {W : List UInt8}
    {up : Int} (h1 : 255 < up) {R : List (Nat × Outcome)} {s s' : Callers} {e : CallersEvent}
    (he : During i e) (h : Raising i c bs t W up R s) (hs : s.step e = some s') : Raising i c bs t W up R s' := by
  obtain ⟨g1, g2⟩ := h
  have keep : ∀ x, Keeps s.inner x → Raising i c bs t W up R { s with inner := x } := by
    intro x ⟨k1, k2, k3, k4, k5⟩
    refine ⟨by simpa [k3] using g1, ?_⟩
    rcases g2 with ⟨a, b, d⟩ | ⟨a, b⟩
    · exact .inl ⟨a, b, by simpa [k2] using d⟩
    · exact .inr ⟨a, b⟩
  cases e with
  | call _ _ _ => exact he.elim
  | rx b =>
    obtain ⟨x, hx, rfl⟩ := Option.map_eq_some_iff.1 hs
    exact keep x (inner_keeps.1 _ hx)
  | reader =>
    simp only [Callers.step] at hs
    split at hs
    · obtain ⟨x, hx, rfl⟩ := Option.map_eq_some_iff.1 hs
      exact keep x (inner_keeps.2.1 hx)
    · cases hs
  | callbackRaises =>
    simp only [Callers.step] at hs
    split at hs
    · obtain ⟨x, hx, rfl⟩ := Option.map_eq_some_iff.1 hs
      exact keep x (inner_keeps.2.2.1 hx)
    · cases hs
  | serialError =>
    obtain ⟨x, hx, rfl⟩ := Option.map_eq_some_iff.1 hs
    exact keep x (inner_keeps.2.2.2 hx)
  | timeout k =>
    cases he
    rcases g2 with ⟨a, -, -⟩ | ⟨a, -⟩ <;> simp [Callers.step, Callers.timeoutStep, a] at hs
  | step k =>
    cases he
    rcases g2 with ⟨a, b, d⟩ | ⟨a, -⟩
    · simp only [Callers.step, Callers.threadStep, a, d, head_error h1, Option.some.injEq] at hs
      subst hs
      exact ⟨g1, .inr ⟨set_get a, by simp [Callers.finish, b]⟩⟩
    · simp [Callers.step, Callers.threadStep, a] at hs

theorem raising_run {i : Nat} {c : Command} {bs : List UInt8} {t : Int} {W : List UInt8}
    {up : Int} (h1 : 255 < up) {R : List (Nat × Outcome)} {es : List CallersEvent} : ∀ {s s' : Callers},
    (∀ e ∈ es, During i e) → Raising i c bs t W up R s → s.run es = some s' → Raising i c bs t W up R s' := by
  induction es with
  | nil => intro s s' _ h hr; cases hr; exact h
  | cons e es ih =>
    intro s s' he h hr
    obtain ⟨s1, hs, hr⟩ := Option.bind_eq_some_iff.1 hr
    exact ih (fun e h => he e (by simp [h])) (raising_step h1 (he e (by simp)) h hs) hr

/-! ### The call -/

theorem call_begins {s s1 : Callers} {i : Nat} {c : Command} {t : Int} {bs : List UInt8} (hc : sendable c = some bs)
    (h : s.step (.call i c t) = some s1) : s.threads[i]? = some .idle ∧ bs.length ≤ 255 ∧
    s1 = s.goto i (.run .counter c bs [] (if s.inner.config.skip then 0 else t)) := by
  obtain ⟨hb, hl⟩ := Gw.sendable_some hc
  simp only [Callers.step, Callers.call] at h
  split at h
  · next hi =>
    rw [hb] at h
    simp only [Option.some.injEq] at h
    exact ⟨hi.1, hl, h.symm⟩
  · cases h

end Verif.Modem.Ir
