import Verif.Lemmas.ModemCallers

/-! Calls that do not overlap look like the calls of one thread. -/

namespace Verif.Modem

open Verif Verif.Serial

/-- The same state with other values for the application thread. -/
def over (x : State) (m : Main) (o : List Outcome) (w : List UInt8) (up : Int) : State :=
  { x with main := m, outcomes := o, written := w, parser := { x.parser with upCounter := up } }

theorem countO_up (p : Parser) (up : Int) (c : Option UInt8) :
    { p with upCounter := up }.countO c = { p.countO c with upCounter := up } := by
  cases c with
  | none => rfl
  | some c =>
    simp only [Parser.countO, Parser.count]
    (repeat' split) <;> rfl

theorem countAll_up (p : Parser) (up : Int) (l : List (Option UInt8)) :
    { p with upCounter := up }.countAll l = { p.countAll l with upCounter := up } := by
  induction l generalizing p with
  | nil => rfl
  | cons c l ih =>
    simp only [Parser.countAll, List.foldl_cons] at ih ⊢
    rw [countO_up, ih]

theorem parse_upCounter (p : Parser) (up : Int) (bs : List UInt8) :
    { p with upCounter := up }.parse bs = ({ (p.parse bs).1 with upCounter := up }, (p.parse bs).2) := by
  rw [parse_trace, parse_trace]
  simp only [Serial.finish]
  rw [countAll_up]

/-- What the reading thread does is independent of the application thread. -/
theorem inner_over (x : State) (m : Main) (o : List Outcome) (w : List UInt8) (up : Int) :
    (∀ bs, (over x m o w up).rxStep bs = (x.rxStep bs).map fun y => over y m o w up) ∧
    ((over x m o w up).readerStep = x.readerStep.map fun y => over y m o w up) ∧
    ((over x m o w up).raiseStep = x.raiseStep.map fun y => over y m o w up) ∧
    ((over x m o w up).serialErrorStep = x.serialErrorStep.map fun y => over y m o w up) := by
  refine ⟨?_, ?_, ?_, ?_⟩
  · intro bs
    unfold State.rxStep
    simp only [over]
    cases x.reader <;> simp only [Option.map_none]
    rw [parse_upCounter]
    rcases x.parser.parse bs with ⟨p, r⟩
    cases r <;> rfl
  · unfold State.readerStep
    simp only [over]
    cases hr : x.reader with
    | next q =>
      cases q with
      | nil => rfl
      | cons tm q =>
        obtain ⟨t', m'⟩ := tm
        have he : State.isSync { x with main := m, outcomes := o, written := w, parser.upCounter := up } t' m' =
            x.isSync t' m' := rfl
        have he' := he
        rw [hr] at he'
        simp only [he']
        cases x.isSync t' m' <;> rfl
    | other t' m' q =>
      by_cases h1 : x.config.callback = true ∧ x.connected = true ∧ t' ≤ 3
      · refine (if_pos h1).trans ?_
        simp only
        rw [if_pos h1]; rfl
      · refine (if_neg h1).trans ?_
        simp only
        rw [if_neg h1]
        by_cases h5 : t' = 5
        · rw [if_pos h5, if_pos h5]
          by_cases h2 : x.config.rebootedCallback = true
          · refine (if_pos h2).trans ?_
            rw [if_pos h2]; rfl
          · refine (if_neg h2).trans ?_
            rw [if_neg h2]; rfl
        · rw [if_neg h5, if_neg h5]
          split_ifs <;> rfl
    | _ => rfl
  · unfold State.raiseStep
    simp only [over]
    (repeat' split) <;> simp_all
  · unfold State.serialErrorStep
    simp only [over]
    (repeat' split) <;> simp_all

/-- What the reading thread leaves alone. -/
def Keeps (x y : State) : Prop :=
  y.config = x.config ∧ y.parser.upCounter = x.parser.upCounter ∧ y.written = x.written ∧ y.tag = x.tag ∧
    (x.completed = true → y.completed = true)

theorem inner_keeps {x y : State} :
    (∀ bs, x.rxStep bs = some y → Keeps x y) ∧ (x.readerStep = some y → Keeps x y) ∧
    (x.raiseStep = some y → Keeps x y) ∧ (x.serialErrorStep = some y → Keeps x y) := by
  refine ⟨?_, ?_, ?_, ?_⟩
  · intro b h
    have hu := parse_up x.parser b
    unfold State.rxStep at h
    split at h
    · split at h
      · next hp => rw [hp] at hu; cases h; exact ⟨rfl, hu, rfl, rfl, id⟩
      · next hp => rw [hp] at hu; cases h; exact ⟨rfl, hu, rfl, rfl, id⟩
    · cases h
  · intro h
    unfold State.readerStep at h
    repeat' split at h
    all_goals first
      | (cases h; done)
      | (cases h; exact ⟨rfl, rfl, rfl, rfl, id⟩)
      | (cases h; exact ⟨rfl, rfl, rfl, rfl, fun hc => by simp [hc]⟩)
  · intro h
    unfold State.raiseStep at h
    split at h
    all_goals first | (cases h; done) | (cases h; exact ⟨rfl, rfl, rfl, rfl, id⟩)
  · intro h
    unfold State.serialErrorStep at h
    split at h
    all_goals first | (cases h; done) | (cases h; exact ⟨rfl, rfl, rfl, rfl, id⟩)

def wrap (up : Int) : Int := if up > 255 then 0 else up

/-- What the single thread is doing (`m`), has written (`w`), and its frame counter (`up`), when the busy thread is
at this place. -/
def Seen (x : State) (place : Place) (c : Command) (f : List UInt8) (t : Int) (m : Main) (w : List UInt8)
    (up : Int) : Prop :=
  match place with
  | .counter => m = .idle ∧ w = x.written ∧ up = x.parser.upCounter
  | .load => m = .run .resetList .app c.tagId f t ∧ w = x.written ∧ up = wrap (x.parser.upCounter + 1)
  | .store u => m = .run .resetList .app c.tagId f t ∧ w = x.written ∧ up = wrap u
  | .test => m = .run .resetList .app c.tagId f t ∧ w = x.written ∧ up = wrap x.parser.upCounter
  | .reset => m = .run .resetList .app c.tagId f t ∧ w = x.written ∧ up = 0
  | .resetList => m = .run .resetList .app c.tagId f t ∧ w = x.written ∧ up = x.parser.upCounter
  | .resetTag => m = .run .resetTag .app c.tagId f t ∧ w = x.written ∧ up = x.parser.upCounter
  | .resetCompleted =>
    m = .run .resetCompleted .app c.tagId f t ∧ w = x.written ∧ up = x.parser.upCounter ∧ x.tag = none
  | .check =>
    m = .run .setTag .app c.tagId f t ∧ w = x.written ∧ up = x.parser.upCounter ∧ x.tag = none ∧ t > 0
  | .setTag => m = .run .setTag .app c.tagId f t ∧ w = x.written ∧ up = x.parser.upCounter ∧ t > 0
  | .acquire => m = .run .write .app c.tagId f t ∧ w = x.written ∧ up = x.parser.upCounter
  | .writing r => m = .run .write .app c.tagId f t ∧ w ++ f = x.written ++ r ∧ up = x.parser.upCounter
  | .wait => m = .run .wait .app c.tagId f t ∧ w = x.written ∧ up = x.parser.upCounter
  | .final => m = .run .wait .app c.tagId f t ∧ w = x.written ∧ up = x.parser.upCounter
  | .ret => m = .run .wait .app c.tagId f t ∧ w = x.written ∧ up = x.parser.upCounter ∧ x.completed = true

theorem Seen.keeps {x y : State} {place : Place} {c : Command} {f : List UInt8} {t : Int} {m : Main}
    {w : List UInt8} {up : Int} (h : Seen x place c f t m w up) (hk : Keeps x y) : Seen y place c f t m w up := by
  obtain ⟨-, k2, k3, k4, k5⟩ := hk
  cases place <;> simp only [Seen, k2, k3, k4] at h ⊢ <;> first
    | exact h
    | exact ⟨h.1, h.2.1, h.2.2.1, k5 h.2.2.2⟩

/-- `a` is the single-threaded modem that corresponds to `s`; `todo` is a command whose call it has not begun. -/
inductive Abs (base : List Outcome) (s : Callers) : State → List Command → Prop
  | idle (h : ∀ th ∈ s.threads, th = .idle) :
    Abs base s (over s.inner .idle (base ++ s.results.map (·.2)) s.inner.written s.inner.parser.upCounter) []
  | busy (i : Nat) (place : Place) (c : Command) (alp f : List UInt8) (t : Int) (m : Main) (w : List UInt8) (up : Int)
    (hi : s.threads[i]? = some (.run place c alp f t))
    (ho : ∀ (j : Nat), j ≠ i → ∀ th, s.threads[j]? = some th → th = .idle)
    (hb : bytearray c.iter = .ok alp) (ht : s.inner.config.skip = true → t = 0)
    (hs : Seen s.inner place c f t m w up) :
    Abs base s (over s.inner m (base ++ s.results.map (·.2)) w up) (if place = .counter then [c] else [])

/-- An event of the reading thread. -/
theorem Abs.inner {base : List Outcome} {s : Callers} {a : State} {todo : List Command} (h : Abs base s a todo)
    {y : State} (hk : Keeps s.inner y) {f : State → Option State}
    (hf : ∀ m o w up, f (over s.inner m o w up) = some (over y m o w up)) :
    ∃ a', f a = some a' ∧ Abs base { s with inner := y } a' todo := by
  cases h with
  | idle h =>
    refine ⟨_, hf _ _ _ _, ?_⟩
    rw [← hk.2.1, ← hk.2.2.1]
    exact Abs.idle (s := { s with inner := y }) h
  | busy i place c alp f' t m w up hi ho hb ht hs =>
    refine ⟨_, hf _ _ _ _, ?_⟩
    exact Abs.busy (s := { s with inner := y }) i place c alp f' t m w up hi ho hb
      (by intro h; exact ht (by rw [← h, ← hk.1])) (hs.keeps hk)

theorem others_idle {s : Callers} {i : Nat} {th : Thread} (hi : s.threads[i]? = some th)
    (ho : ∀ (j : Nat), j ≠ i → ∀ th, s.threads[j]? = some th → th = .idle) (x : Thread) :
    (s.threads.set i x)[i]? = some x ∧
    (∀ (j : Nat), j ≠ i → ∀ th, (s.threads.set i x)[j]? = some th → th = .idle) ∧
    (x = .idle → ∀ th ∈ s.threads.set i x, th = .idle) := by
  have hg := getElem?_set' (x := x) hi
  have h2 : ∀ (j : Nat), j ≠ i → ∀ th, (s.threads.set i x)[j]? = some th → th = .idle := by
    intro j hj th hth
    rw [hg, if_neg hj] at hth
    exact ho j hj th hth
  refine ⟨by rw [hg, if_pos rfl], h2, ?_⟩
  rintro hx th hth
  obtain ⟨j, hj⟩ := List.mem_iff_getElem?.1 hth
  by_cases hji : j = i
  · rw [hg, if_pos hji] at hj; rw [← hx]; exact (Option.some.inj hj).symm
  · exact h2 j hji th hj

/-- The busy thread goes on. -/
theorem Abs.goto {base : List Outcome} {s : Callers} {i : Nat} {th : Thread} (hi : s.threads[i]? = some th)
    (ho : ∀ (j : Nat), j ≠ i → ∀ th, s.threads[j]? = some th → th = .idle)
    {place : Place} {c : Command} {alp f : List UInt8} {t : Int} {m : Main} {w : List UInt8} {up : Int}
    (hb : bytearray c.iter = .ok alp) {x : State} {l : Option Nat} (ht : x.config.skip = true → t = 0)
    (hs : Seen x place c f t m w up) :
    Abs base (Callers.goto { s with inner := x, lock := l } i (.run place c alp f t))
      (over x m (base ++ s.results.map (·.2)) w up) (if place = .counter then [c] else []) := by
  obtain ⟨h1, h2, -⟩ := others_idle hi ho (.run place c alp f t)
  exact Abs.busy (s := Callers.goto { s with inner := x, lock := l } i (.run place c alp f t)) i place c alp f t m w up
    h1 h2 hb ht hs

/-- The call of the busy thread ends. -/
theorem Abs.finish {base : List Outcome} {s : Callers} {i : Nat} {th : Thread} (hi : s.threads[i]? = some th)
    (ho : ∀ (j : Nat), j ≠ i → ∀ th, s.threads[j]? = some th → th = .idle) {l : Option Nat} {o : Outcome} {a : State}
    (ha : a = (over s.inner .idle (base ++ s.results.map (·.2) ++ [o]) s.inner.written s.inner.parser.upCounter)) :
    Abs base (Callers.finish { s with lock := l } i o) a [] := by
  obtain ⟨-, -, h3⟩ := others_idle hi ho .idle
  have := Abs.idle (base := base) (s := Callers.finish { s with lock := l } i o) (h3 rfl)
  rw [ha]
  simpa [Callers.finish] using this

theorem run_one {a a' : State} {e : Event} (h : a.step e = some a') : a.run [e] = some a' := by
  simp [State.run, h]

theorem abs_threadStep {base : List Outcome} {s s' : Callers} {a : State} {todo : List Command}
    (h : Abs base s a todo) {i : Nat} (hst : s.threadStep i = some s') :
    ∃ es' a' todo', a.run es' = some a' ∧ Abs base s' a' todo' ∧ executed es' ++ todo' = todo ∧ arrived es' = [] := by
  unfold Callers.threadStep at hst
  cases h with
  | idle hall =>
    cases hi : s.threads[i]? with
    | none => rw [hi] at hst; cases hst
    | some th =>
      have := hall th (List.mem_of_getElem? hi)
      subst this
      rw [hi] at hst
      cases hst
  | busy j place c alp f t m w up hj ho hb ht hs =>
    by_cases hij : i = j
    swap
    · cases hi : s.threads[i]? with
      | none => rw [hi] at hst; cases hst
      | some th =>
        have := ho i hij th hi
        subst this
        rw [hi] at hst
        cases hst
    subst hij
    rw [hj] at hst
    cases place with
    | counter =>
      obtain ⟨rfl, rfl, rfl⟩ := hs
      have hcall : ∀ o : List Outcome, (over s.inner .idle o s.inner.written s.inner.parser.upCounter).step
          (.call (.execute c t)) = some ((over s.inner .idle o s.inner.written s.inner.parser.upCounter).startExecute
            .app c t) := fun _ => rfl
      have htt : (if s.inner.config.skip then 0 else t) = t := by
        by_cases hk : s.inner.config.skip = true
        · rw [if_pos hk, ht hk]
        · rw [if_neg hk]
      simp only at hst
      split at hst
      · next e he =>
        cases hst
        refine ⟨[.call (.execute c t)], _, [], run_one (hcall _), ?_, rfl, rfl⟩
        refine Abs.finish (l := s.lock) hj ho ?_
        simp [State.startExecute, over, Parser.buildSerialFrame, hb, he, State.finish]
      · next head he =>
        cases hst
        refine ⟨[.call (.execute c t)], _, [], run_one (hcall _), ?_, rfl, rfl⟩
        have := Abs.goto (base := base) hj ho (place := .load) hb (x := s.inner) (l := s.lock) ht
          (f := head ++ [(Crc.calculateCrc alp).1, (Crc.calculateCrc alp).2] ++ alp)
          (show Seen _ .load _ _ _ _ _ _ from ⟨rfl, rfl, rfl⟩)
        refine Eq.subst (motive := fun z => Abs base _ z _) ?_ this
        simp [State.startExecute, over, Parser.buildSerialFrame, hb, he, wrap]
        exact htt.symm
    | load =>
      obtain ⟨rfl, rfl, rfl⟩ := hs
      cases hst
      exact ⟨[], _, [], rfl, Abs.goto (l := s.lock) hj ho hb ht ⟨rfl, rfl, rfl⟩, rfl, rfl⟩
    | store u =>
      obtain ⟨rfl, rfl, rfl⟩ := hs
      cases hst
      exact ⟨[], _, [], rfl, Abs.goto (place := .test) (x := { s.inner with parser.upCounter := u }) (l := s.lock) hj ho
        hb ht ⟨rfl, rfl, rfl⟩, rfl, rfl⟩
    | test =>
      obtain ⟨rfl, rfl, rfl⟩ := hs
      cases hst
      by_cases hu : s.inner.parser.upCounter > 255
      · rw [if_pos hu]
        exact ⟨[], _, [], rfl, Abs.goto (place := .reset) (l := s.lock) hj ho hb ht
          ⟨rfl, rfl, by simp [wrap, hu]⟩, rfl, rfl⟩
      · rw [if_neg hu]
        exact ⟨[], _, [], rfl, Abs.goto (place := .resetList) (l := s.lock) hj ho hb ht
          ⟨rfl, rfl, by simp [wrap, hu]⟩, rfl, rfl⟩
    | reset =>
      obtain ⟨rfl, rfl, rfl⟩ := hs
      cases hst
      exact ⟨[], _, [], rfl, Abs.goto (place := .resetList) (x := { s.inner with parser.upCounter := 0 }) (l := s.lock)
        hj ho hb ht ⟨rfl, rfl, rfl⟩, rfl, rfl⟩
    | resetList =>
      obtain ⟨rfl, rfl, rfl⟩ := hs
      cases hst
      exact ⟨[.main], _, [], rfl, Abs.goto (place := .resetTag)
        (x := { s.inner with responses := s.inner.responses ++ [[]] }) (l := s.lock) hj ho hb ht ⟨rfl, rfl, rfl⟩,
        rfl, rfl⟩
    | resetTag =>
      obtain ⟨rfl, rfl, rfl⟩ := hs
      cases hst
      exact ⟨[.main], _, [], rfl, Abs.goto (place := .resetCompleted) (x := { s.inner with tag := none }) (l := s.lock)
        hj ho hb ht ⟨rfl, rfl, rfl, rfl⟩, rfl, rfl⟩
    | resetCompleted =>
      obtain ⟨rfl, rfl, rfl, htag⟩ := hs
      cases hst
      by_cases hp : t > 0
      · rw [if_pos hp]
        exact ⟨[.main], _, [], rfl, Abs.goto (place := .check) (x := { s.inner with completed := false }) (l := s.lock)
          hj ho hb ht ⟨rfl, rfl, rfl, htag, hp⟩, rfl, rfl⟩
      · rw [if_neg hp]
        refine ⟨[.main, .main], _, [], ?_, Abs.goto (place := .acquire) (x := { s.inner with completed := false })
          (l := s.lock) hj ho hb ht ⟨rfl, rfl, rfl⟩, rfl, rfl⟩
        simp [State.run, State.step, State.mainStep, over, hp]
    | check =>
      obtain ⟨rfl, rfl, rfl, htag, hp⟩ := hs
      simp only [htag, if_true] at hst
      cases hst
      exact ⟨[], _, [], rfl, Abs.goto (place := .setTag) (l := s.lock) hj ho hb ht ⟨rfl, rfl, rfl, hp⟩, rfl, rfl⟩
    | setTag =>
      obtain ⟨rfl, rfl, rfl, hp⟩ := hs
      cases hst
      refine ⟨[.main], _, [], ?_, Abs.goto (place := .acquire) (x := { s.inner with tag := c.tagId }) (l := s.lock)
        hj ho hb ht ⟨rfl, rfl, rfl⟩, rfl, rfl⟩
      simp [State.run, State.step, State.mainStep, over, hp]
    | acquire =>
      obtain ⟨rfl, rfl, rfl⟩ := hs
      simp only at hst
      split at hst
      · cases hst
        exact ⟨[], _, [], rfl, Abs.goto (place := .writing f) hj ho hb ht ⟨rfl, rfl, rfl⟩, rfl, rfl⟩
      · cases hst
    | writing r =>
      obtain ⟨rfl, hw, rfl⟩ := hs
      cases r with
      | cons b r =>
        cases hst
        exact ⟨[], _, [], rfl, Abs.goto (place := .writing r)
          (x := { s.inner with written := s.inner.written ++ [b] }) (l := s.lock) hj ho hb ht
          ⟨rfl, by rw [hw]; simp, rfl⟩, rfl, rfl⟩
      | nil =>
        rw [List.append_nil] at hw
        simp only at hst
        split at hst
        · next h0 =>
          subst h0
          cases hst
          refine ⟨[.main], _, [], ?_, Abs.finish (l := none) hj ho rfl, rfl, rfl⟩
          simp [State.run, State.step, State.mainStep, over, State.finishExecute, State.finish, hw]
        · next h0 =>
          cases hst
          refine ⟨[.main], _, [], ?_, Abs.goto (place := .wait) (l := none) hj ho hb ht ⟨rfl, rfl, rfl⟩, rfl, rfl⟩
          simp [State.run, State.step, State.mainStep, over, hw, h0]
    | wait =>
      obtain ⟨rfl, rfl, rfl⟩ := hs
      simp only at hst
      split at hst
      · cases hst
        exact ⟨[], _, [], rfl, Abs.goto (place := .final) (l := s.lock) hj ho hb ht ⟨rfl, rfl, rfl⟩, rfl, rfl⟩
      · cases hst
    | final =>
      obtain ⟨rfl, rfl, rfl⟩ := hs
      simp only at hst
      split at hst
      · next hc =>
        cases hst
        exact ⟨[], _, [], rfl, Abs.goto (place := .ret) (l := s.lock) hj ho hb ht ⟨rfl, rfl, rfl, hc⟩, rfl, rfl⟩
      · next hc =>
        cases hst
        refine ⟨[.timeout], _, [], ?_, Abs.finish (l := s.lock) hj ho rfl, rfl, rfl⟩
        simp [State.run, State.step, State.timeoutStep, over, State.finishExecute, State.finish, hc]
    | ret =>
      obtain ⟨rfl, rfl, rfl, hc⟩ := hs
      cases hst
      refine ⟨[.main], _, [], ?_, Abs.finish (l := s.lock) hj ho rfl, rfl, rfl⟩
      simp [State.run, State.step, State.mainStep, over, State.finishExecute, State.finish, hc]

theorem abs_step {base : List Outcome} {s s' : Callers} {a : State} {todo : List Command} {e : CallersEvent}
    (h : Abs base s a todo) (hal : ∀ i c t, e = .call i c t → ∀ th ∈ s.threads, th = .idle)
    (hst : s.step e = some s') :
    ∃ es' a' todo', a.run es' = some a' ∧ Abs base s' a' todo' ∧ executed es' ++ todo' = todo ++ commands [e] ∧
      arrived es' = arrivals [e] := by
  cases e with
  | step i =>
    obtain ⟨es', a', todo', h1, h2, h3, h4⟩ := abs_threadStep h hst
    exact ⟨es', a', todo', h1, h2, by rw [h3]; simp [commands], h4⟩
  | call i c timeout =>
    have hall := hal i c timeout rfl
    have hho : ∀ (j : Nat), j ≠ i → ∀ th, s.threads[j]? = some th → th = .idle :=
      fun j _ th hj => hall th (List.mem_of_getElem? hj)
    have htodo : todo = [] ∧ a = over s.inner .idle (base ++ s.results.map (·.2)) s.inner.written
        s.inner.parser.upCounter := by
      cases h with
      | idle => exact ⟨rfl, rfl⟩
      | busy j place c' alp f t m w up hj _ _ _ _ => cases hall _ (List.mem_of_getElem? hj)
    obtain ⟨rfl, rfl⟩ := htodo
    simp only [Callers.step, Callers.call] at hst
    split at hst
    · next hc =>
      split at hst
      · next e he =>
        cases hst
        refine ⟨[.call (.execute c timeout)], _, [], run_one rfl, ?_, rfl, rfl⟩
        refine Abs.finish (l := s.lock) hc.1 hho ?_
        simp [over, State.startCall, State.startExecute, Parser.buildSerialFrame, he, State.finish]
      · next alp hb =>
        cases hst
        refine ⟨[], _, [c], rfl, ?_, rfl, rfl⟩
        exact Abs.goto (place := .counter) (f := []) (l := s.lock) hc.1 hho hb (by intro hk; simp [hk]) ⟨rfl, rfl, rfl⟩
    · cases hst
  | timeout i =>
    simp only [Callers.step, Callers.timeoutStep] at hst
    split at hst
    · next c alp f t hi =>
      cases hst
      cases h with
      | idle hall => cases hall _ (List.mem_of_getElem? hi)
      | busy j place c' alp' f' t' m w up hj ho hb ht hs =>
        by_cases hij : i = j
        swap
        · cases ho i hij _ hi
        subst hij
        rw [hi] at hj
        cases hj
        obtain ⟨rfl, rfl, rfl⟩ := hs
        exact ⟨[], _, [], rfl, Abs.goto (place := .final) (l := s.lock) hi ho hb ht ⟨rfl, rfl, rfl⟩, rfl, rfl⟩
    · cases hst
  | rx bs =>
    simp only [Callers.step] at hst
    obtain ⟨y, hy, rfl⟩ := Option.map_eq_some_iff.1 hst
    obtain ⟨a', h1, h2⟩ := h.inner (f := fun z => z.rxStep bs) (inner_keeps.1 bs hy)
      (by intro m o w up; rw [(inner_over s.inner m o w up).1, hy]; rfl)
    exact ⟨[.rx bs], a', todo, run_one h1, h2, by simp [executed, commands], rfl⟩
  | reader =>
    simp only [Callers.step] at hst
    split at hst
    · obtain ⟨y, hy, rfl⟩ := Option.map_eq_some_iff.1 hst
      obtain ⟨a', h1, h2⟩ := h.inner (f := fun z => z.readerStep) (inner_keeps.2.1 hy)
        (by intro m o w up; rw [(inner_over s.inner m o w up).2.1, hy]; rfl)
      exact ⟨[.reader], a', todo, run_one h1, h2, by simp [executed, commands], rfl⟩
    · cases hst
  | callbackRaises =>
    simp only [Callers.step] at hst
    split at hst
    · obtain ⟨y, hy, rfl⟩ := Option.map_eq_some_iff.1 hst
      obtain ⟨a', h1, h2⟩ := h.inner (f := fun z => z.raiseStep) (inner_keeps.2.2.1 hy)
        (by intro m o w up; rw [(inner_over s.inner m o w up).2.2.1, hy]; rfl)
      exact ⟨[.callbackRaises], a', todo, run_one h1, h2, by simp [executed, commands], rfl⟩
    · cases hst
  | serialError =>
    simp only [Callers.step] at hst
    obtain ⟨y, hy, rfl⟩ := Option.map_eq_some_iff.1 hst
    obtain ⟨a', h1, h2⟩ := h.inner (f := fun z => z.serialErrorStep) (inner_keeps.2.2.2 hy)
      (by intro m o w up; rw [(inner_over s.inner m o w up).2.2.2, hy]; rfl)
    exact ⟨[.serialError], a', todo, run_one h1, h2, by simp [executed, commands], rfl⟩

theorem run_append' {a a' a'' : State} {es es' : List Event} (h : a.run es = some a') (h' : a'.run es' = some a'') :
    a.run (es ++ es') = some a'' := by
  induction es generalizing a with
  | nil => cases h; exact h'
  | cons e es ih =>
    unfold State.run at h
    cases hst : a.step e with
    | none => rw [hst] at h; cases h
    | some a1 =>
      rw [hst] at h
      simp only [List.cons_append, State.run, hst]
      exact ih h

theorem abs_run {base : List Outcome} {es : List CallersEvent} : ∀ {s s' : Callers} {a : State} {todo : List Command},
    Abs base s a todo → Alone s es → s.run es = some s' →
    ∃ es' a' todo', a.run es' = some a' ∧ Abs base s' a' todo' ∧ executed es' ++ todo' = todo ++ commands es ∧
      arrived es' = arrivals es := by
  induction es with
  | nil =>
    intro s s' a todo h _ hr
    cases hr
    exact ⟨[], a, todo, rfl, h, by simp [executed, commands], rfl⟩
  | cons e es ih =>
    intro s s' a todo h hal hr
    unfold Callers.run at hr
    cases hst : s.step e with
    | none => rw [hst] at hr; cases hr
    | some s1 =>
      rw [hst] at hr
      obtain ⟨es1, a1, todo1, h1, h2, h3, h4⟩ := abs_step h
        (by rintro i c t rfl; exact hal.1 rfl) hst
      have hal1 : Alone s1 es := hal.2 s1 hst
      obtain ⟨es2, a2, todo2, k1, k2, k3, k4⟩ := ih h2 hal1 hr
      refine ⟨es1 ++ es2, a2, todo2, run_append' h1 k1, k2, ?_, ?_⟩
      · have : executed (es1 ++ es2) = executed es1 ++ executed es2 := by simp [executed]
        rw [this, List.append_assoc, k3, ← List.append_assoc, h3]
        have : commands (e :: es) = commands [e] ++ commands es := by
          rw [← List.singleton_append]; simp only [commands, List.filterMap_append]
        rw [this, List.append_assoc]
      · have e1 : arrived (es1 ++ es2) = arrived es1 ++ arrived es2 := by simp [arrived]
        have e2 : arrivals (e :: es) = arrivals [e] ++ arrivals es := by
          rw [← List.singleton_append]; simp only [arrivals, List.filterMap_append]
        rw [e1, e2, h4, k4]

end Verif.Modem
