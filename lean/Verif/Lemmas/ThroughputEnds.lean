import Verif.Lemmas.ThroughputRun
import Verif.Lemmas.ThroughputOne

/-! Lemmas for the end of examples/throughput_test.py: the receiver, and the program with both devices. -/

namespace Verif.Throughput.En

open Verif Verif.Serial Verif.Modem Verif.Examples Verif.Throughput

/-! ### The receiver -/

/-- Steps of the receiver without its device, while its part of the program has not ended. -/
inductive Sets : State → State → Prop
  | refl (s : State) : Sets s s
  | main {s s1 s2 : State} : s.stage ≠ .running → s.stage ≠ .failed → s.step (.main 0) = some s1 → Sets s1 s2 → Sets s s2
  | timeout {s s1 s2 : State} : s.stage ≠ .running → s.stage ≠ .failed → s.step .timeout = some s1 → Sets s1 s2 → Sets s s2

theorem Sets.trans {s s1 s2 : State} (h : Sets s s1) (h' : Sets s1 s2) : Sets s s2 := by
  induction h with
  | refl => exact h'
  | main h1 h2 h3 _ ih => exact .main h1 h2 h3 (ih h')
  | timeout h1 h2 h3 _ ih => exact .timeout h1 h2 h3 (ih h')

theorem Sets.one {s s1 : State} (h1 : s.stage ≠ .running) (h2 : s.stage ≠ .failed) (h : s.mainStep 0 = some s1) :
    Sets s s1 := .main h1 h2 (by simp only [State.step, h2, if_false]; exact h) (.refl _)

/-- A method of the modem is running. -/
def busy : Stage → Option Stage
  | .connecting => some .profile
  | .profileRunning => some .accessClass
  | .classRunning => some .built
  | _ => none

theorem busy_main {s : State} {n : Stage} (h : busy s.stage = some n) :
    s.stage ≠ .running ∧ s.stage ≠ .failed ∧ s.mainStep 0 = s.callStep n := by
  cases hp : s.stage <;> rw [hp] at h <;> cases h <;> simp [State.mainStep, hp]

theorem lift_modem {n : Stage} {es : List Modem.Event} : ∀ {s : State} {m : Modem.State}, busy s.stage = some n →
    (∀ e ∈ es, e = .main ∨ e = .timeout) → s.modem.run es = some m → Sets s { s with modem := m } := by
  induction es with
  | nil => intro s m _ _ h; cases h; exact .refl s
  | cons e es ih =>
    intro s m hb he h
    unfold Modem.State.run at h
    cases hst : s.modem.step e with
    | none => rw [hst] at h; cases h
    | some m1 =>
      rw [hst] at h
      have hrest := ih (s := { s with modem := m1 }) hb (fun x hx => he x (by simp [hx])) h
      obtain ⟨h1, h2, h3⟩ := busy_main hb
      rcases he e (by simp) with rfl | rfl
      · refine (Sets.one h1 h2 ?_).trans hrest
        rw [h3]
        unfold State.callStep
        rw [if_neg (fun hi => (idle_no hi).1 hst), hst]
        rfl
      · exact .timeout h1 h2 (by simp only [State.step, h2, if_false, hst]; rfl) hrest

theorem leave_call {s : State} {n : Stage} (hb : busy s.stage = some n) :
    ∃ s', Sets s s' ∧ (s'.stage = n ∨ s'.stage = .failed) := by
  obtain ⟨k, m, -, hr, hm⟩ := C46_ends s.modem
  have hs : Sets s { s with modem := m } := by
    rcases hr with hr | hr
    · exact lift_modem hb (fun e he => .inl (List.mem_replicate.1 he).2) hr
    · refine lift_modem hb (fun e he => ?_) hr
      rcases List.mem_append.1 he with he | he
      · exact .inl (List.mem_replicate.1 he).2
      · exact .inr (List.mem_singleton.1 he)
  obtain ⟨h1, h2, h3⟩ := busy_main (s := { s with modem := m }) hb
  unfold State.callStep at h3
  rw [if_pos hm] at h3
  split at h3
  · exact ⟨_, hs.trans (.one h1 h2 h3), .inr rfl⟩
  · exact ⟨_, hs.trans (.one h1 h2 h3), .inl rfl⟩

/-- How much is still to do. -/
def left : Stage → Nat
  | .made => 8 | .connecting => 7 | .profile => 6 | .profileRunning => 5 | .accessClass => 4 | .classRunning => 3
  | .built => 2 | .started => 1 | .running => 0 | .failed => 0

theorem Sets.run {s s' : State} (h : Sets s s') : ∃ es, s.run es = some s' := by
  induction h with
  | refl => exact ⟨[], rfl⟩
  | main _ _ h3 _ ih => obtain ⟨es, ih⟩ := ih; exact ⟨.main 0 :: es, by rw [State.run, h3]; exact ih⟩
  | timeout _ _ h3 _ ih => obtain ⟨es, ih⟩ := ih; exact ⟨.timeout :: es, by rw [State.run, h3]; exact ih⟩

theorem Sets.alone {s s' : State} (h : Sets s s') :
    ∃ es, (∀ e ∈ es, (∃ r, e = Event.main r) ∨ e = .timeout) ∧ s.run es = some s' := by
  induction h with
  | refl => exact ⟨[], by simp, rfl⟩
  | main _ _ h3 _ ih =>
    obtain ⟨es, h4, ih⟩ := ih
    exact ⟨.main 0 :: es, by simpa using h4, by rw [State.run, h3]; exact ih⟩
  | timeout _ _ h3 _ ih =>
    obtain ⟨es, h4, ih⟩ := ih
    exact ⟨.timeout :: es, by simpa using h4, by rw [State.run, h3]; exact ih⟩

theorem next_stage {s : State} (hd : Doing s) (h1 : s.stage ≠ .running) (h2 : s.stage ≠ .failed) :
    ∃ s', Sets s s' ∧ left s'.stage < left s.stage := by
  have fin : ∀ s' : State, s.mainStep 0 = some s' → left s'.stage < left s.stage →
      ∃ s', Sets s s' ∧ left s'.stage < left s.stage := fun s' h h' => ⟨s', .one h1 h2 h, h'⟩
  have call : ∀ n, busy s.stage = some n → left n < left s.stage → ∃ s', Sets s s' ∧ left s'.stage < left s.stage := by
    intro n hb hn
    obtain ⟨s', h3, h4 | h4⟩ := leave_call hb
    · exact ⟨s', h3, by rw [h4]; exact hn⟩
    · exact ⟨s', h3, by rw [h4]; exact lt_of_le_of_lt (Nat.zero_le _) hn⟩
  have exec : ∀ n x, s.mainStep 0 = s.executeStep n x → s.modem.main = .idle → left n < left s.stage →
      ∃ s', Sets s s' ∧ left s'.stage < left s.stage := by
    intro n x hx hm hn
    cases x with
    | error => exact fin _ hx (lt_of_le_of_lt (Nat.zero_le _) hn)
    | ok c =>
      refine fin { s with modem := s.modem.startCall (.execute c 1), stage := n } (hx.trans ?_) hn
      simp [State.executeStep, Modem.State.step, hm]
  unfold Doing at hd
  cases hp : s.stage with
  | made =>
    rw [hp] at hd
    refine hp ▸ fin { s with modem := s.modem.startCall (.connect true 0), stage := .connecting } ?_ ?_
    · simp [State.mainStep, hp, Modem.State.step, hd.1]
    · rw [hp]; simp [left]
  | connecting => exact hp ▸ call .profile (by rw [hp]; rfl) (by rw [hp]; simp [left])
  | profile =>
    rw [hp] at hd
    exact hp ▸ exec .profileRunning _ (by simp only [State.mainStep, hp]; rfl) hd.1 (by rw [hp]; simp [left])
  | profileRunning => exact hp ▸ call .accessClass (by rw [hp]; rfl) (by rw [hp]; simp [left])
  | accessClass =>
    rw [hp] at hd
    exact hp ▸ exec .classRunning _ (by simp only [State.mainStep, hp]; rfl) hd.1 (by rw [hp]; simp [left])
  | classRunning => exact hp ▸ call .built (by rw [hp]; rfl) (by rw [hp]; simp [left])
  | built =>
    exact hp ▸ fin { s with stage := .started, commands := some [] } (by simp [State.mainStep, hp]) (by rw [hp]; simp [left])
  | started =>
    by_cases hu : s.modem.uid.isSome
    · exact hp ▸ fin { s with stage := .running } (by simp [State.mainStep, hp, hu]) (by rw [hp]; simp [left])
    · exact hp ▸ fin { s with stage := .failed } (by simp [State.mainStep, hp, hu]) (by rw [hp]; simp [left])
  | running => exact absurd hp h1
  | failed => exact absurd hp h2

/-- The receiver comes to the end of its setup without its device. -/
theorem sets_up (n : Nat) : ∀ {s : State}, left s.stage < n → (∃ fs, init.run fs = some s) →
    ∃ s', Sets s s' ∧ (s'.stage = .running ∨ s'.stage = .failed) := by
  induction n with
  | zero => intro s h; exact absurd h (by omega)
  | succ n ih =>
    intro s hn ⟨fs, hfs⟩
    by_cases h1 : s.stage = .running
    · exact ⟨s, .refl s, .inl h1⟩
    by_cases h2 : s.stage = .failed
    · exact ⟨s, .refl s, .inr h2⟩
    obtain ⟨s1, h3, h4⟩ := next_stage (doing_run hfs) h1 h2
    obtain ⟨es, h5⟩ := h3.run
    obtain ⟨s2, h6, h7⟩ := ih (by omega) ⟨fs ++ es, run_append.2 ⟨s, hfs, h5⟩⟩
    exact ⟨s2, h3.trans h6, h7⟩

/-! ### The receiver without a transmitter -/

theorem Sets.listener {a : Args} {r r' : State} (h : Sets r r') : ∀ {s : Listener}, s.place = .setup → s.rx = r →
    ∃ es, (∀ e ∈ es, Unheard e = true) ∧ s.run a es = some { s with rx := r' } := by
  induction h with
  | refl => intro s _ hr; subst hr; exact ⟨[], by simp, rfl⟩
  | @main r r1 r2 h1 h2 h3 _ ih =>
    intro s hp hr
    subst hr
    obtain ⟨es, h4, h5⟩ := ih (s := { s with rx := r1 }) hp rfl
    refine ⟨.main 0 :: es, by simpa [Unheard] using h4, ?_⟩
    rw [Listener.run, show s.step a (.main 0) = some { s with rx := r1 } by
      simp [Listener.step, hp, LPlace.ended, Listener.mainStep, h1, h2, h3]]
    exact h5
  | @timeout r r1 r2 h1 h2 h3 _ ih =>
    intro s hp hr
    subst hr
    obtain ⟨es, h4, h5⟩ := ih (s := { s with rx := r1 }) hp rfl
    refine ⟨.timeout :: es, by simpa [Unheard] using h4, ?_⟩
    rw [Listener.run, show s.step a .timeout = some { s with rx := r1 } by
      simp [Listener.step, hp, LPlace.ended, h3]]
    exact h5

/-- Steps without the device. -/
def Hears (a : Args) (s s' : Listener) : Prop := ∃ es, (∀ e ∈ es, Unheard e = true) ∧ s.run a es = some s'

theorem Hears.cons {a : Args} {s s1 s2 : Listener} {e : ListenerEvent} (he : Unheard e = true)
    (h : s.step a e = some s1) (h' : Hears a s1 s2) : Hears a s s2 := by
  obtain ⟨es, h1, h2⟩ := h'
  exact ⟨e :: es, by simpa [he] using h1, by rw [Listener.run, h]; exact h2⟩

theorem listener_append {a : Args} {s s' : Listener} {es es' : List ListenerEvent} :
    s.run a (es ++ es') = some s' ↔ ∃ s1, s.run a es = some s1 ∧ s1.run a es' = some s' := by
  induction es generalizing s with
  | nil => simp [Listener.run]
  | cons e es ih =>
    simp only [List.cons_append, Listener.run]
    cases s.step a e with
    | none => simp
    | some s1 => simpa using ih

theorem listener_ends {a : Args} {es : List ListenerEvent} {s : Listener} (h : Listener.start.run a es = some s) :
    ∃ s', Hears a s s' ∧ s'.place.ended = true := by
  obtain ⟨hfs, hb⟩ := So.bound_run h
  have final : ∀ (x : Listener) (n : Nat) (l : List Command), x.place = .check n → x.rx.commands = some l →
      ∃ s', Hears a x s' ∧ s'.place.ended = true := by
    intro x n l h1 h2
    cases hv : verdict (payload a.size) a.count n l with
    | error e =>
      exact ⟨{ x with place := .failed }, .cons (e := .main 0) rfl (by
        simp [Listener.step, h1, LPlace.ended, Listener.mainStep, h2, hv]) ⟨[], by simp, rfl⟩, rfl⟩
    | ok b =>
      exact ⟨{ x with place := .done b }, .cons (e := .main 0) rfl (by
        simp [Listener.step, h1, LPlace.ended, Listener.mainStep, h2, hv]) ⟨[], by simp, rfl⟩, rfl⟩
  have leave : ∀ (x : Listener) (n : Nat) (l : List Command), x.place = .poll n → x.rx.commands = some l →
      ∃ s', Hears a x s' ∧ s'.place.ended = true := by
    intro x n l h1 h2
    obtain ⟨s', f1, f2⟩ := final { x with place := .check n } n l rfl h2
    by_cases hlt : (n : Int) < a.count
    · exact ⟨s', .cons (e := .late) rfl (by simp [Listener.step, h1, LPlace.ended, hlt]) f1, f2⟩
    · exact ⟨s', .cons (e := .main 0) rfl (by simp [Listener.step, h1, LPlace.ended, Listener.mainStep, hlt]) f1, f2⟩
  have list : ∀ r : State, (∃ fs, init.run fs = some r) → r.stage = .running → ∃ l, r.commands = some l := by
    intro r ⟨fs, hf⟩ hs
    have hd := doing_run hf
    unfold Doing at hd
    rw [hs] at hd
    exact Option.isSome_iff_exists.1 hd.2.2.1
  cases hp : s.place with
  | setup =>
    obtain ⟨fs, hf⟩ := hfs
    obtain ⟨r', h1, h2⟩ := sets_up _ (Nat.lt_succ_self _) ⟨fs, hf⟩
    obtain ⟨es1, h4, h5⟩ := h1.listener (a := a) hp rfl
    obtain ⟨gs, h6⟩ := h1.run
    have go : (∃ s', Hears a { s with rx := r' } s' ∧ s'.place.ended = true) → ∃ s', Hears a s s' ∧ s'.place.ended = true := by
      rintro ⟨s', ⟨es2, h7, h8⟩, h9⟩
      refine ⟨s', ⟨es1 ++ es2, fun e he => ?_, listener_append.2 ⟨_, h5, h8⟩⟩, h9⟩
      rcases List.mem_append.1 he with he | he
      · exact h4 e he
      · exact h7 e he
    refine go ?_
    rcases h2 with h2 | h2
    · obtain ⟨l, hl⟩ := list r' ⟨fs ++ gs, run_append.2 ⟨_, hf, h6⟩⟩ h2
      obtain ⟨s', f1, f2⟩ := leave { s with rx := r', place := .poll 0 } 0 l rfl hl
      exact ⟨s', .cons (e := .main 0) rfl (by simp [Listener.step, hp, LPlace.ended, Listener.mainStep, h2]) f1, f2⟩
    · exact ⟨{ s with rx := r', place := .failed }, .cons (e := .main 0) rfl (by
        simp [Listener.step, hp, LPlace.ended, Listener.mainStep, h2]) ⟨[], by simp, rfl⟩, rfl⟩
  | poll n =>
    obtain ⟨l, hl⟩ := list _ hfs (hb (by simp [hp]) (by simp [hp])).1
    exact leave s n l hp hl
  | check n =>
    obtain ⟨l, hl⟩ := list _ hfs (hb (by simp [hp]) (by simp [hp])).1
    exact final s n l hp hl
  | done b => exact ⟨s, ⟨[], by simp, rfl⟩, by rw [hp]; rfl⟩
  | failed => exact ⟨s, ⟨[], by simp, rfl⟩, by rw [hp]; rfl⟩

/-! ### Both devices -/

/-- Steps without the devices. -/
def Reaches (a : Args) (s s' : Test) : Prop := ∃ es, (∀ e ∈ es, Alone e = true) ∧ s.run a es = some s'

theorem Reaches.refl {a : Args} (s : Test) : Reaches a s s := ⟨[], by simp, rfl⟩

theorem Reaches.trans {a : Args} {s s1 s2 : Test} (h : Reaches a s s1) (h' : Reaches a s1 s2) : Reaches a s s2 := by
  obtain ⟨es, h1, h2⟩ := h
  obtain ⟨es', h3, h4⟩ := h'
  refine ⟨es ++ es', fun e he => ?_, Tr.run_append.2 ⟨_, h2, h4⟩⟩
  rcases List.mem_append.1 he with he | he
  · exact h1 e he
  · exact h3 e he

theorem Reaches.step {a : Args} {s s1 : Test} {e : TestEvent} (he : Alone e = true) (h : s.step a e = some s1) :
    Reaches a s s1 := ⟨[e], by simpa using he, by unfold Test.run; rw [h]; rfl⟩

theorem Reaches.main {a : Args} {s s1 : Test} (hn : s.place.ended = false) (h : s.mainStep a 0 = some s1) :
    Reaches a s s1 := .step (e := .main 0) rfl (by simp only [Test.step, hn]; exact h)

/-- A method of the transmitter is running. -/
def calls : Place → Option Place
  | .connecting => some .profile
  | .profileRunning => some .receiver
  | .activating p => some (.reset p)
  | .sending p c k => some (.send p c k)
  | _ => none

theorem calls_main {a : Args} {s : Test} {n : Place} (h : calls s.place = some n) :
    s.place.ended = false ∧ s.place ≠ .receiver ∧ s.mainStep a 0 = s.callStep n := by
  cases hp : s.place <;> rw [hp] at h <;> cases h <;> simp [Test.mainStep, hp, Place.ended]

theorem lift_tx {a : Args} {n : Place} {es : List Modem.Event} : ∀ {s : Test} {m : Modem.State},
    calls s.place = some n → (∀ e ∈ es, e = .main ∨ e = .timeout) → s.tx.run es = some m →
      Reaches a s { s with tx := m } := by
  induction es with
  | nil => intro s m _ _ h; cases h; exact .refl s
  | cons e es ih =>
    intro s m hb he h
    unfold Modem.State.run at h
    cases hst : s.tx.step e with
    | none => rw [hst] at h; cases h
    | some m1 =>
      rw [hst] at h
      have hrest := ih (s := { s with tx := m1 }) hb (fun x hx => he x (by simp [hx])) h
      obtain ⟨h1, h2, h3⟩ := calls_main (a := a) hb
      refine Reaches.trans ?_ hrest
      rcases he e (by simp) with rfl | rfl
      · refine .main h1 ?_
        rw [h3]
        unfold Test.callStep
        rw [if_neg (fun hi => (idle_no hi).1 hst), hst]
        rfl
      · refine .step (e := .timeout) rfl ?_
        cases hp : s.place <;> rw [hp] at hb <;> cases hb <;> simp [Test.step, hp, Place.ended, hst]

theorem leave_tx {a : Args} {s : Test} {n : Place} (hb : calls s.place = some n) :
    ∃ s', Reaches a s s' ∧ (s'.place = n ∨ s'.place = .failed) := by
  obtain ⟨k, m, -, hr, hm⟩ := C46_ends s.tx
  have hs : Reaches a s { s with tx := m } := by
    rcases hr with hr | hr
    · exact lift_tx hb (fun e he => .inl (List.mem_replicate.1 he).2) hr
    · refine lift_tx hb (fun e he => ?_) hr
      rcases List.mem_append.1 he with he | he
      · exact .inl (List.mem_replicate.1 he).2
      · exact .inr (List.mem_singleton.1 he)
  obtain ⟨h1, h2, h3⟩ := calls_main (a := a) (s := { s with tx := m }) hb
  unfold Test.callStep at h3
  rw [if_pos hm] at h3
  split at h3
  · exact ⟨_, hs.trans (.main h1 h3), .inr rfl⟩
  · exact ⟨_, hs.trans (.main h1 h3), .inl rfl⟩

theorem Sets.test {a : Args} {r r' : State} (h : Sets r r') : ∀ {s : Test}, s.place = .receiver → s.rx = r →
    Reaches a s { s with rx := r' } := by
  induction h with
  | refl => intro s _ hr; subst hr; exact .refl s
  | @main r r1 r2 h1 h2 h3 _ ih =>
    intro s hp hr
    subst hr
    refine Reaches.trans (.main (by rw [hp]; rfl) ?_) (ih (s := { s with rx := r1 }) hp rfl)
    simp [Test.mainStep, hp, h1, h2, h3]
  | @timeout r r1 r2 h1 h2 h3 _ ih =>
    intro s hp hr
    subst hr
    refine Reaches.trans (.step (e := .timeout) rfl ?_) (ih (s := { s with rx := r1 }) hp rfl)
    simp [Test.step, hp, Place.ended, h3]

/-- How much is still to do. -/
def runRank (a : Args) : Phase → Nat
  | .broadcastQos => 3 * (2 * a.count.toNat + 20)
  | .broadcast => 2 * (2 * a.count.toNat + 20)
  | .unicastQos => 2 * a.count.toNat + 20
  | .unicast => 0

def rank (a : Args) : Place → Nat
  | .connect => 4 * (2 * a.count.toNat + 20) + 5
  | .connecting => 4 * (2 * a.count.toNat + 20) + 4
  | .profile => 4 * (2 * a.count.toNat + 20) + 3
  | .profileRunning => 4 * (2 * a.count.toNat + 20) + 2
  | .receiver => 4 * (2 * a.count.toNat + 20) + 1
  | .activate p => runRank a p + 2 * a.count.toNat + 12
  | .activating p => runRank a p + 2 * a.count.toNat + 11
  | .reset p => runRank a p + 2 * a.count.toNat + 10
  | .make p => runRank a p + 2 * a.count.toNat + 9
  | .send p _ k => runRank a p + 2 * k + 5
  | .sending p _ k => runRank a p + 2 * k + 6
  | .rate p => runRank a p + 4
  | .poll p _ => runRank a p + 3
  | .check p _ => runRank a p + 2
  | .done => 0
  | .failed => 0

theorem next_place {a : Args} {s : Test} (hr : ∃ fs, init.run fs = some s.rx) (hi : Tr.Inv a s) (hn : s.place.ended = false) :
    ∃ s', Reaches a s s' ∧ rank a s'.place < rank a s.place := by
  have fin : ∀ s' : Test, s.mainStep a 0 = some s' → rank a s'.place < rank a s.place →
      ∃ s', Reaches a s s' ∧ rank a s'.place < rank a s.place := fun s' h h' => ⟨s', .main hn h, h'⟩
  have call : ∀ n, calls s.place = some n → rank a n < rank a s.place →
      ∃ s', Reaches a s s' ∧ rank a s'.place < rank a s.place := by
    intro n hb hn
    obtain ⟨s', h3, h4 | h4⟩ := leave_tx (a := a) hb
    · exact ⟨s', h3, by rw [h4]; exact hn⟩
    · exact ⟨s', h3, by rw [h4]; exact lt_of_le_of_lt (Nat.zero_le _) hn⟩
  have exec : ∀ n t x, s.mainStep a 0 = s.executeStep n t x → s.tx.main = .idle → rank a n < rank a s.place →
      ∃ s', Reaches a s s' ∧ rank a s'.place < rank a s.place := by
    intro n t x hx hm hn
    cases x with
    | error => exact fin _ hx (lt_of_le_of_lt (Nat.zero_le _) hn)
    | ok c =>
      refine fin { s with tx := s.tx.startCall (.execute c t), place := n } (hx.trans ?_) hn
      simp [Test.executeStep, Modem.State.step, hm]
  have list : s.rx.stage = .running → ∃ l, s.rx.commands = some l := by
    intro hs
    obtain ⟨fs, hfs⟩ := hr
    have hd := doing_run hfs
    unfold Doing at hd
    rw [hs] at hd
    exact Option.isSome_iff_exists.1 hd.2.2.1
  obtain ⟨t, uid, ps, hw, hc⟩ := hi
  cases hp : s.place with
  | connect =>
    rw [hp] at hc
    refine hp ▸ fin { s with tx := s.tx.startCall (.connect true 0), place := .connecting } ?_ ?_
    · simp [Test.mainStep, hp, Modem.State.step, hc.2.1]
    · rw [hp]; simp [rank]
  | connecting => exact hp ▸ call .profile (by rw [hp]; rfl) (by rw [hp]; simp [rank])
  | profile =>
    rw [hp] at hc
    exact hp ▸ exec .profileRunning _ _ (by simp only [Test.mainStep, hp]; rfl) hc.2 (by rw [hp]; simp [rank])
  | profileRunning => exact hp ▸ call .receiver (by rw [hp]; rfl) (by rw [hp]; simp [rank])
  | receiver =>
    obtain ⟨r', h1, h2 | h2⟩ := sets_up _ (Nat.lt_succ_self _) hr
    · refine ⟨{ s with rx := r', place := .activate .broadcastQos }, (h1.test hp rfl).trans (.main (by simp [hp, Place.ended]) ?_), ?_⟩
      · simp [Test.mainStep, hp, h2]
      · simp [rank, runRank]; omega
    · refine ⟨{ s with rx := r', place := .failed }, (h1.test hp rfl).trans (.main (by simp [hp, Place.ended]) ?_), ?_⟩
      · simp [Test.mainStep, hp, h2]
      · simp [rank]
  | activate p =>
    rw [hp] at hc
    exact hp ▸ exec (.activating p) _ _ (by simp only [Test.mainStep, hp]; rfl) hc.2.1 (by rw [hp]; simp [rank])
  | activating p => exact hp ▸ call (.reset p) (by rw [hp]; rfl) (by rw [hp]; simp [rank])
  | reset p =>
    rw [hp] at hc
    exact hp ▸ fin { s with rx := { s.rx with commands := some [] }, place := .make p }
      (by simp [Test.mainStep, hp, State.step, hc.2.2.1]) (by rw [hp]; simp [rank])
  | make p =>
    rw [hp] at hc
    cases hx : p.command 0 uid a.size with
    | error e =>
      exact hp ▸ fin { s with place := .failed } (by simp [Test.mainStep, hp, hc.2.2.2, hx]) (by rw [hp]; simp [rank])
    | ok c =>
      exact hp ▸ fin { s with place := .send p c a.count.toNat } (by simp [Test.mainStep, hp, hc.2.2.2, hx])
        (by rw [hp]; simp [rank])
  | send p c k =>
    rw [hp] at hc
    cases k with
    | zero => exact hp ▸ fin { s with place := .rate p } (by simp [Test.mainStep, hp]) (by rw [hp]; simp [rank])
    | succ k =>
      exact hp ▸ exec (.sending p c k) _ _ (by simp only [Test.mainStep, hp]; rfl) hc.2.1
        (by rw [hp]; simp only [rank]; omega)
  | sending p c k => exact hp ▸ call (.send p c k) (by rw [hp]; rfl) (by rw [hp]; simp [rank])
  | rate p => exact hp ▸ fin { s with place := .poll p 0 } (by simp [Test.mainStep, hp]) (by rw [hp]; simp [rank])
  | poll p total =>
    by_cases hlt : (total : Int) < a.count
    · refine ⟨{ s with place := .check p total }, .step (e := .late) rfl ?_, ?_⟩
      · simp [Test.step, hp, Place.ended, hlt]
      · simp [rank]
    · exact hp ▸ fin { s with place := .check p total } (by simp [Test.mainStep, hp, hlt]) (by rw [hp]; simp [rank])
  | check p total =>
    rw [hp] at hc
    obtain ⟨l, hl⟩ := list hc.2.2.1
    cases hv : verdict (payload a.size) a.count total l with
    | error e =>
      exact hp ▸ fin { s with place := .failed } (by simp [Test.mainStep, hp, hl, hv]) (by rw [hp]; simp [rank])
    | ok b =>
      refine hp ▸ fin { s with place := following p, verdicts := s.verdicts ++ [b] }
        (by simp [Test.mainStep, hp, hl, hv]) ?_
      rw [hp]
      cases p <;> simp [rank, following, runRank] <;> omega
  | done => rw [hp] at hn; cases hn
  | failed => rw [hp] at hn; cases hn

theorem can_end {a : Args} (n : Nat) : ∀ {s : Test}, rank a s.place < n → (∃ es, Test.start.run a es = some s) →
    ∃ s', Reaches a s s' ∧ s'.place.ended = true := by
  induction n with
  | zero => intro s h; exact absurd h (by omega)
  | succ n ih =>
    intro s hn ⟨fs, hfs⟩
    cases hp : s.place.ended with
    | true => exact ⟨s, .refl s, hp⟩
    | false =>
      obtain ⟨s1, ⟨es, h8, h5⟩, h4⟩ := next_place (Tr.rx_run hfs) (Tr.inv_run hfs) hp
      obtain ⟨s2, h6, h7⟩ := ih (by omega) ⟨fs ++ es, Tr.run_append.2 ⟨s, hfs, h5⟩⟩
      exact ⟨s2, Reaches.trans ⟨es, h8, h5⟩ h6, h7⟩

end Verif.Throughput.En
