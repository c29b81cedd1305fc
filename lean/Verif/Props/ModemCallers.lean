import Verif.Lemmas.CallersAlone
import Verif.Props.ModemWrite

/-! Several threads, or a callback, execute commands. -/

namespace Verif.Modem

open Verif Verif.Serial

/-! ### C74: concurrent callers -/

/-- Steps of one thread, and of the reading thread. -/
def steps (i n : Nat) : List CallersEvent := List.replicate n (.step i)
def reading (n : Nat) : List CallersEvent := List.replicate n .reader

/-- C74: whatever the threads and the callbacks do and however their steps are mixed, the serial port gets whole
frames one after the other (the last one may not be finished yet); the frames of a thread carry the commands of
its calls that did not raise, each once, in the order of the calls. -/
theorem C74_frames {m : State} {n : Nat} {es : List CallersEvent} {s : Callers}
    (h : (Callers.start m n).run es = some s) : ∃ order : List Line,
    s.inner.written ++ s.unwritten = m.written ++ (order.map Line.bytes).flatten ∧
    ∀ (i : Nat), (order.filter (fun l => l.thread = i)).map Line.payload =
      ((callsOf i es).zip (resultsOf i s)).filterMap sentBytes ++ inProgress s.threads[i]? := by
  obtain ⟨order, h'⟩ := lineInv_run (lineInv_start m n) h
  rw [List.nil_append] at h'
  exact ⟨order, h'.bytes, h'.sent⟩

/-- Two threads: the second one takes the lock while the first one wants to write, writes three bytes, then the first
one has to wait; one of the commands cannot be sent. -/
def mixed : List CallersEvent :=
  [.call 1 cmd7 0] ++ steps 1 7 ++ [.call 2 badTag 5, .call 2 cmd9 0] ++ steps 2 7 ++ steps 2 4

example : (((Callers.start (init plain) 2).run mixed).map fun s =>
      (s.inner.written, s.unwritten, s.lock, s.threadStep 1)) =
    some ((frame 1 1 [0xB4, 9]).take 3, (frame 1 1 [0xB4, 9]).drop 3, some 2, none) ∧
    (((Callers.start (init plain) 2).run (mixed ++ steps 2 7 ++ steps 1 11)).map fun s =>
      (s.inner.written, s.unwritten, s.results)) =
    some (frame 1 1 [0xB4, 9] ++ frame 0 1 [0xB4, 7], [], [(2, .raised .valueError), (2, .empty), (1, .empty)]) := by
  decide +kernel

/-- C74, when no call begins while another one is in progress: it does not matter which thread calls. The modem is in
the state in which it is after some interleaving of a single thread that makes the same calls, with the same bytes
arriving; the calls ended in the same way. Everything proved about a single thread applies. -/
theorem C74_alone_partial {m : State} (hm : m.main = .idle) {n : Nat} {es : List CallersEvent} {s : Callers}
    (h : (Callers.start m n).run es = some s) (ha : Alone (Callers.start m n) es) :
    ∃ es' a, m.run es' = some a ∧ arrived es' = arrivals es ∧
      (∃ main written up, a = { s.inner with
        main := main, outcomes := m.outcomes ++ s.results.map (·.2), written := written
        parser.upCounter := up }) ∧
      ((∀ th ∈ s.threads, th = .idle) → executed es' = commands es ∧
        a = { s.inner with main := .idle, outcomes := m.outcomes ++ s.results.map (·.2) }) := by
  have h0 : Abs m.outcomes (Callers.start m n) m [] := by
    have := Abs.idle (base := m.outcomes) (s := Callers.start m n) (by
      intro th hth
      exact List.eq_of_mem_replicate hth)
    refine Eq.subst (motive := fun z => Abs m.outcomes (Callers.start m n) z []) ?_ this
    simp only [over, Callers.start, List.map_nil, List.append_nil]
    cases m
    cases hm
    rfl
  obtain ⟨es', a, todo, h1, h2, h3, h4⟩ := abs_run h0 ha h
  refine ⟨es', a, h1, h4, ?_, ?_⟩
  · cases h2 <;> exact ⟨_, _, _, rfl⟩
  · intro hall
    cases h2 with
    | idle => exact ⟨by simpa using h3, rfl⟩
    | busy j _ _ _ _ _ _ _ _ hj => cases hall _ (List.mem_of_getElem? hj)

/-- The first thread executes a command and gets the response, then the second one does, with another message before
the response; then the callback for that message executes a command without waiting. -/
def turns : List CallersEvent :=
  [.call 1 cmd7 10] ++ steps 1 20 ++ [.rx final7] ++ reading 5 ++ steps 1 3 ++
    [.call 2 cmd9 10] ++ steps 2 20 ++ [.rx final9] ++ reading 5 ++ steps 2 3 ++
    [.rx push] ++ reading 2 ++ [.call 0 cmd7 0] ++ steps 0 18 ++ reading 2

/-- A modem with a callback, connected. -/
def withCallback : State := { init ⟨false, true, false⟩ with connected := true }

example : (((Callers.start withCallback 2).run turns).map fun s =>
      (s.results, s.inner.responses, s.inner.called, s.threads)) =
    some ([(1, .list 1), (2, .list 2), (0, .empty)], [[], [cFinal7], [cFinal9], []], [.command cPush],
      [.idle, .idle, .idle]) ∧
    Alone (Callers.start withCallback 2) turns ∧
    (init ⟨false, true, false⟩).run [.call (.connect false 0)] =
      some { withCallback with outcomes := [.bool true] } := by decide +kernel

/-- The reading thread is in a callback while it is in a call; once it has reset the flag nobody sets it. -/
def CallbackInv (s : Callers) : Prop :=
  (∀ r ∈ resultsOf 0 s, r = .empty ∨ ∃ e, r = .raised e) ∧
  ∀ place c a f t, s.threads[0]? = some (.run place c a f t) → s.inner.reader.inCallback = true ∧ place ≠ .ret ∧
    (place ∈ [.check, .setTag, .acquire, .wait, .final] ∨ place.isWriting = true → s.inner.completed = false)

theorem callbackInv_goto {s : Callers} (h : CallbackInv s) {i : Nat} {place p' : Place} {c : Command}
    {a f f' : List UInt8} {t : Int} (hi : s.threads[i]? = some (.run place c a f t)) {x : State} {l : Option Nat}
    (hr : x.reader = s.inner.reader) (hx : x.completed = s.inner.completed ∨ x.completed = false)
    (hp : i = 0 → p' ≠ .ret ∧ (p' ∈ [.check, .setTag, .acquire, .wait, .final] ∨ p'.isWriting = true →
      x.completed = false)) :
    CallbackInv (Callers.goto { s with inner := x, lock := l } i (.run p' c a f' t)) := by
  refine ⟨h.1, ?_⟩
  intro q c' a' f'' t' hq
  change (s.threads.set i _)[0]? = _ at hq
  show x.reader.inCallback = true ∧ q ≠ .ret ∧ (_ → x.completed = false)
  rw [getElem?_set' hi] at hq
  rw [hr]
  by_cases h0 : 0 = i
  · rw [if_pos h0] at hq
    cases hq
    subst h0
    obtain ⟨k1, -, -⟩ := h.2 _ _ _ _ _ hi
    exact ⟨k1, hp rfl⟩
  · rw [if_neg h0] at hq
    obtain ⟨k1, k2, k3⟩ := h.2 _ _ _ _ _ hq
    refine ⟨k1, k2, fun hm => ?_⟩
    rcases hx with hx | hx
    · rw [hx]; exact k3 hm
    · exact hx

theorem callbackInv_finish {s : Callers} (h : CallbackInv s) {i : Nat} {th : Thread} (hi : s.threads[i]? = some th)
    {l : Option Nat} {o : Outcome} (ho : i = 0 → o = .empty ∨ ∃ e, o = .raised e) :
    CallbackInv (Callers.finish { s with lock := l } i o) := by
  constructor
  · intro r hr
    rw [resultsOf_finish] at hr
    by_cases h0 : i = 0
    · rw [if_pos h0, List.mem_append, List.mem_singleton] at hr
      rcases hr with hr | hr
      · exact h.1 r hr
      · rw [hr]; exact ho h0
    · rw [if_neg h0] at hr; exact h.1 r hr
  · intro q c' a' f'' t' hq
    change (s.threads.set i _)[0]? = _ at hq
    rw [getElem?_set' hi] at hq
    by_cases h0 : 0 = i
    · rw [if_pos h0] at hq; cases hq
    · rw [if_neg h0] at hq
      exact h.2 _ _ _ _ _ hq

theorem callbackInv_step {s s' : Callers} {e : CallersEvent} (h : CallbackInv s) (hst : s.step e = some s') :
    CallbackInv s' := by
  cases e with
  | call i c timeout =>
    simp only [Callers.step, Callers.call] at hst
    split at hst
    · next hc =>
      split at hst
      · cases hst
        exact callbackInv_finish h (l := s.lock) hc.1 (fun _ => .inr ⟨_, rfl⟩)
      · cases hst
        refine ⟨h.1, ?_⟩
        intro q c' a' f'' t' hq
        change (s.threads.set i _)[0]? = _ at hq
        rw [getElem?_set' hc.1] at hq
        by_cases h0 : 0 = i
        · rw [if_pos h0] at hq
          cases hq
          exact ⟨hc.2 h0.symm, by decide, by intro hm; simp [Place.isWriting] at hm⟩
        · rw [if_neg h0] at hq
          exact h.2 _ _ _ _ _ hq
    · cases hst
  | step i =>
    simp only [Callers.step, Callers.threadStep] at hst
    split at hst
    · cases hst
    · cases hst
    · next place c a f t hi =>
      have h0 : i = 0 → place ≠ .ret ∧ (place ∈ [.check, .setTag, .acquire, .wait, .final] ∨
          place.isWriting = true → s.inner.completed = false) := by
        rintro rfl
        exact (h.2 _ _ _ _ _ hi).2
      cases place with
      | counter =>
        simp only at hst
        split at hst
        · cases hst
          exact callbackInv_finish h (l := s.lock) hi (fun _ => .inr ⟨_, rfl⟩)
        · cases hst
          exact callbackInv_goto h (x := s.inner) (l := s.lock) hi rfl (.inl rfl)
            (fun _ => ⟨by decide, by intro hm; simp [Place.isWriting] at hm⟩)
      | load =>
        cases hst
        exact callbackInv_goto h (x := s.inner) (l := s.lock) hi rfl (.inl rfl)
          (fun _ => ⟨by simp, by intro hm; simp [Place.isWriting] at hm⟩)
      | store up =>
        cases hst
        exact callbackInv_goto h (x := { s.inner with parser.upCounter := up }) (l := s.lock) hi rfl (.inl rfl)
          (fun _ => ⟨by decide, by intro hm; simp [Place.isWriting] at hm⟩)
      | test =>
        cases hst
        refine callbackInv_goto h (x := s.inner) (l := s.lock) hi rfl (.inl rfl) (fun _ => ?_)
        split <;> exact ⟨by decide, by intro hm; simp [Place.isWriting] at hm⟩
      | reset =>
        cases hst
        exact callbackInv_goto h (x := { s.inner with parser.upCounter := 0 }) (l := s.lock) hi rfl (.inl rfl)
          (fun _ => ⟨by decide, by intro hm; simp [Place.isWriting] at hm⟩)
      | resetList =>
        cases hst
        exact callbackInv_goto h (x := { s.inner with responses := s.inner.responses ++ [[]] }) (l := s.lock) hi rfl
          (.inl rfl) (fun _ => ⟨by decide, by intro hm; simp [Place.isWriting] at hm⟩)
      | resetTag =>
        cases hst
        exact callbackInv_goto h (x := { s.inner with tag := none }) (l := s.lock) hi rfl (.inl rfl)
          (fun _ => ⟨by decide, by intro hm; simp [Place.isWriting] at hm⟩)
      | resetCompleted =>
        cases hst
        refine callbackInv_goto h (x := { s.inner with completed := false }) (l := s.lock) hi rfl (.inr rfl)
          (fun _ => ⟨?_, fun _ => rfl⟩)
        split <;> decide
      | check =>
        simp only at hst
        split at hst
        · cases hst
          exact callbackInv_goto h (x := s.inner) (l := s.lock) hi rfl (.inl rfl)
            (fun hz => ⟨by decide, fun _ => (h0 hz).2 (.inl (by simp))⟩)
        · cases hst
          exact callbackInv_finish h (l := s.lock) hi (fun _ => .inr ⟨_, rfl⟩)
      | setTag =>
        cases hst
        exact callbackInv_goto h (x := { s.inner with tag := c.tagId }) (l := s.lock) hi rfl (.inl rfl)
          (fun hz => ⟨by decide, fun _ => (h0 hz).2 (.inl (by simp))⟩)
      | acquire =>
        simp only at hst
        split at hst
        · cases hst
          exact callbackInv_goto h (x := s.inner) (l := some i) hi rfl (.inl rfl)
            (fun hz => ⟨by simp, fun _ => (h0 hz).2 (.inl (by simp))⟩)
        · cases hst
      | writing r =>
        cases r with
        | cons b r =>
          cases hst
          exact callbackInv_goto h (x := { s.inner with written := s.inner.written ++ [b] }) (l := s.lock) hi rfl
            (.inl rfl) (fun hz => ⟨by simp, fun _ => (h0 hz).2 (.inr rfl)⟩)
        | nil =>
          simp only at hst
          split at hst
          · cases hst
            exact callbackInv_finish h (l := none) hi (fun _ => .inl rfl)
          · cases hst
            exact callbackInv_goto h (x := s.inner) (l := none) hi rfl (.inl rfl)
              (fun hz => ⟨by simp, fun _ => (h0 hz).2 (.inr rfl)⟩)
      | wait =>
        simp only at hst
        split at hst
        · cases hst
          exact callbackInv_goto h (x := s.inner) (l := s.lock) hi rfl (.inl rfl)
            (fun hz => ⟨by simp, fun _ => (h0 hz).2 (.inl (by simp))⟩)
        · cases hst
      | final =>
        simp only at hst
        split at hst
        · next hc =>
          cases hst
          refine callbackInv_goto h (x := s.inner) (l := s.lock) hi rfl (.inl rfl) (fun hz => ?_)
          rw [(h0 hz).2 (.inl (by simp))] at hc
          cases hc
        · cases hst
          exact callbackInv_finish h (l := s.lock) hi (fun _ => .inl rfl)
      | ret =>
        cases hst
        exact callbackInv_finish h (l := s.lock) hi (fun hz => absurd rfl (h0 hz).1)
  | timeout i =>
    simp only [Callers.step, Callers.timeoutStep] at hst
    split at hst
    · next c a f t hi =>
      have h0 : i = 0 → s.inner.completed = false := by
        rintro rfl
        exact (h.2 _ _ _ _ _ hi).2.2 (.inl (by simp))
      cases hst
      exact callbackInv_goto h (x := s.inner) (l := s.lock) hi rfl (.inl rfl) (fun hz => ⟨by simp, fun _ => h0 hz⟩)
    · cases hst
  | rx bs =>
    simp only [Callers.step] at hst
    obtain ⟨y, hy, rfl⟩ := Option.map_eq_some_iff.1 hst
    refine ⟨h.1, fun q c a f t hq => ?_⟩
    have := (h.2 _ _ _ _ _ hq).1
    unfold State.rxStep at hy
    cases hr : s.inner.reader <;> simp [hr, Reader.inCallback] at hy this
  | reader =>
    simp only [Callers.step] at hst
    split at hst
    · next hi =>
      obtain ⟨y, hy, rfl⟩ := Option.map_eq_some_iff.1 hst
      refine ⟨h.1, fun q c a f t hq => ?_⟩
      rw [show ({ s with inner := y } : Callers).threads = s.threads from rfl, hi] at hq
      cases hq
    · cases hst
  | callbackRaises =>
    simp only [Callers.step] at hst
    split at hst
    · next hi =>
      obtain ⟨y, hy, rfl⟩ := Option.map_eq_some_iff.1 hst
      refine ⟨h.1, fun q c a f t hq => ?_⟩
      rw [show ({ s with inner := y } : Callers).threads = s.threads from rfl, hi] at hq
      cases hq
    · cases hst
  | serialError =>
    simp only [Callers.step] at hst
    obtain ⟨y, hy, rfl⟩ := Option.map_eq_some_iff.1 hst
    refine ⟨h.1, fun q c a f t hq => ?_⟩
    have := (h.2 _ _ _ _ _ hq).1
    unfold State.serialErrorStep at hy
    cases hr : s.inner.reader <;> simp [hr, Reader.inCallback] at hy this

/-- C74, the claim for callbacks is wrong for every run: a command executed inside a callback never gets its
response; the call returns an empty list or raises. -/
theorem C74_refuted_callback {m : State} {n : Nat} {es : List CallersEvent} {s : Callers}
    (h : (Callers.start m n).run es = some s) : ∀ r ∈ resultsOf 0 s, r = .empty ∨ ∃ e, r = .raised e := by
  have h0 : CallbackInv (Callers.start m n) := by
    refine ⟨by intro r hr; simp [resultsOf, Callers.start] at hr, ?_⟩
    intro q c a f t hq
    simp [Callers.start] at hq
  have : ∀ (es : List CallersEvent) (s s' : Callers), CallbackInv s → s.run es = some s' → CallbackInv s' := by
    intro es
    induction es with
    | nil => intro s s' h hr; cases hr; exact h
    | cons e es ih =>
      intro s s' h hr
      unfold Callers.run at hr
      cases hst : s.step e with
      | none => rw [hst] at hr; cases hr
      | some s1 => rw [hst] at hr; exact ih s1 s' (callbackInv_step h hst) hr
  exact (this es _ _ h0 h).1

/-- The response has arrived when the callback for a reboot executes the command, and is in the queue; the loop runs
until the time is over. -/
example : (((Callers.start (init ⟨false, false, true⟩) 1).run ([.rx (reboot ++ final7)] ++ reading 2 ++
      [.call 0 cmd7 10] ++ steps 0 20 ++ [.timeout 0, .step 0] ++ reading 5)).map fun s =>
        (s.results, s.inner.responses, s.inner.completed)) =
    some ([(0, .empty)], [[], [cFinal7]], true) := by decide +kernel

theorem exists_of_map {α β : Type} {o : Option α} {f : α → β} {v : β} (h : o.map f = some v) :
    ∃ s, o = some s ∧ f s = v := Option.map_eq_some_iff.1 h

/-- C74, the claim that a thread gets the responses to its own command is wrong: thread 1 gets the response to the
command of thread 2. -/
theorem C74_refuted_response : ∃ s, (Callers.start (init plain) 2).run ([.call 1 cmd7 10] ++ steps 1 20 ++
      [.call 2 cmd9 10] ++ steps 2 20 ++ [.rx final9] ++ reading 5 ++ steps 1 3 ++ steps 2 3) = some s ∧
    (s.results, s.inner.responses) = ([(1, .list 2), (2, .list 2)], [[], [], [cFinal9]]) :=
  exists_of_map (f := fun s : Callers => (s.results, s.inner.responses)) (by decide +kernel)

/-- C74: a call that does not wait takes away the response of another thread, which returns an empty list although the
response arrived in time. -/
theorem C74_refuted_lost : ∃ s, (Callers.start (init plain) 2).run ([.call 1 cmd7 10] ++ steps 1 20 ++
      [.call 2 cmd9 0] ++ steps 2 18 ++ [.rx final7] ++ reading 5 ++ [.timeout 1, .step 1]) = some s ∧
    (s.results, s.inner.unsolicited) = ([(2, .empty), (1, .empty)], [[.command cFinal7]]) :=
  exists_of_map (f := fun s : Callers => (s.results, s.inner.unsolicited)) (by decide +kernel)

/-- C74: the assertion in line 156 fails for the second of two threads. -/
theorem C74_refuted_assertion : ∃ s, (Callers.start (init plain) 2).run ([.call 1 cmd7 10] ++ steps 1 7 ++
      [.call 2 cmd9 10] ++ steps 2 7 ++ steps 1 2 ++ steps 2 1) = some s ∧
    s.results = [(2, .raised (.assertion false))] :=
  ⟨_, rfl, by decide +kernel⟩

/-- C74: two frames get the same counter. -/
theorem C74_refuted_counter : ∃ s, (Callers.start (init plain) 2).run ([.call 1 cmd7 0, .call 2 cmd9 0, .step 1] ++
      steps 2 18 ++ steps 1 17) = some s ∧ s.inner.written = frame 0 1 [0xB4, 9] ++ frame 0 1 [0xB4, 7] :=
  ⟨_, rfl, by decide +kernel⟩

/-- C74: a command that can be sent raises ValueError: thread 2 builds its frame when thread 1 has counted up from 255,
after 255 commands, but has not yet started again with 0. -/
theorem C74_refuted_overflow : ∃ m s, (init plain).run
      (List.replicate 255 ([.call (.execute cmd7 0)] ++ mains 5)).flatten = some m ∧
    (Callers.start m 2).run ([.call 1 cmd7 0] ++ steps 1 3 ++ [.call 2 cmd9 0] ++ steps 2 1) = some s ∧
    s.results = [(2, .raised .valueError)] := by
  obtain ⟨m, hm, h⟩ := exists_of_map (o := (init plain).run (List.replicate 255 ([.call (.execute cmd7 0)] ++ mains 5)).flatten)
    (f := fun m : State => ((Callers.start m 2).run
      ([.call 1 cmd7 0] ++ steps 1 3 ++ [.call 2 cmd9 0] ++ steps 2 1)).map (·.results))
    (v := some [(2, .raised .valueError)]) (by decide +kernel)
  obtain ⟨s, hs, h⟩ := Option.map_eq_some_iff.1 h
  exact ⟨m, s, hm, hs, h⟩

end Verif.Modem
