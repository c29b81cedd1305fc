import Verif.Spec.Mqtt
import Verif.Lemmas.ModemSinks
import Verif.Lemmas.ModemCalls
import Verif.Props.Modem

namespace Verif.Mqtt

open Verif Verif.Serial Verif.Modem

theorem run_induction {P : State → Prop} {s s' : State} {es : List Event} (h : s.run es = some s')
    (hs : P s) (ih : ∀ s e s', P s → e ∈ es → s.step e = some s' → P s') : P s' := by
  induction es generalizing s with
  | nil => cases h; exact hs
  | cons e es ih' =>
    unfold State.run at h
    cases hst : s.step e with
    | none => rw [hst] at h; cases h
    | some s1 =>
      rw [hst] at h
      exact ih' h (ih s e s1 hs (by simp) hst) fun s e' s' a b => ih s e' s' a (by simp [b])

theorem onCommandReceived_none (s : State) (r : Option PyErr) (m : Msg) :
    (s.onCommandReceived r m).2 = none := by
  unfold State.onCommandReceived
  split <;> rfl

/-- A step of the program is at most one step of the modem. -/
inductive Moves (s s' : State) (e : Event) : Prop
  | stay (h : s'.modem = s.modem) (he : chunks [e] = [])
  | move (f : Modem.Event) (h : s.modem.step f = some s'.modem)
      (hc : Modem.chunks [f] = chunks [e]) (hf : f ≠ .callbackRaises)
      (hs : f = .serialError → e = .serialError)

theorem readerStep_eq {s s' : State} {r : Option PyErr} (h : s.readerStep r = some s') :
    s.modem.step .reader = some s'.modem ∧ s'.stage = s.stage ∧
    s'.published = match s.modem.reader with
      | .callback _ m _ => (s.onCommandReceived r m).1
      | _ => s.published := by
  unfold State.readerStep at h
  split at h
  · next t m q hr =>
    have hn := onCommandReceived_none s r m
    split at h
    · next p hp =>
      obtain ⟨m', h1, rfl⟩ := Option.map_eq_some_iff.1 h
      exact ⟨h1, rfl, by simp [hr, hp]⟩
    · next p e hp => rw [hp] at hn; cases hn
  · next hr =>
    obtain ⟨m', h1, rfl⟩ := Option.map_eq_some_iff.1 h
    refine ⟨h1, rfl, ?_⟩
    split
    · next heq => exact absurd heq (hr _ _ _)
    · rfl

theorem step_moves {s s' : State} {e : Event} (h : s.step e = some s') : Moves s s' e := by
  cases e with
  | main r =>
    simp only [State.step, State.mainStep] at h
    split at h
    · obtain ⟨m, h1, rfl⟩ := Option.map_eq_some_iff.1 h
      exact .move _ h1 rfl (by simp) (by simp)
    · split at h
      · cases h; exact .stay rfl rfl
      · obtain ⟨m, h1, rfl⟩ := Option.map_eq_some_iff.1 h
        exact .move _ h1 rfl (by simp) (by simp)
    · cases h; exact .stay rfl rfl
    · cases h; exact .stay rfl rfl
    · cases h
  | rx bs =>
    obtain ⟨m, h1, rfl⟩ := Option.map_eq_some_iff.1 h
    exact .move _ h1 rfl (by simp) (by simp)
  | reader r => exact .move _ (readerStep_eq h).1 rfl (by simp) (by simp)
  | serialError =>
    obtain ⟨m, h1, rfl⟩ := Option.map_eq_some_iff.1 h
    exact .move _ h1 rfl (by simp) (by simp)

theorem chunks_cons (e : Event) (es : List Event) : chunks (e :: es) = chunks [e] ++ chunks es := by
  cases e <;> rfl

theorem modem_chunks_cons (e : Modem.Event) (es : List Modem.Event) :
    Modem.chunks (e :: es) = Modem.chunks [e] ++ Modem.chunks es := by
  cases e <;> rfl

/-- The modem inside runs as the modem on its own does, and no callback raises. -/
theorem run_modem {s s' : State} {es : List Event} (h : s.run es = some s') :
    ∃ fs, s.modem.run fs = some s'.modem ∧ Modem.chunks fs = chunks es ∧
      Modem.Event.callbackRaises ∉ fs ∧
      (Event.serialError ∉ es → Modem.Event.serialError ∉ fs) := by
  induction es generalizing s with
  | nil => cases h; exact ⟨[], rfl, rfl, by simp, by simp⟩
  | cons e es ih =>
    unfold State.run at h
    cases hst : s.step e with
    | none => rw [hst] at h; cases h
    | some s1 =>
      rw [hst] at h
      obtain ⟨fs, h1, h2, h3, h4⟩ := ih h
      cases step_moves hst with
      | stay hm hc =>
        refine ⟨fs, hm ▸ h1, by rw [chunks_cons, hc, h2]; rfl, h3, fun hn => h4 ?_⟩
        simp only [List.mem_cons, not_or] at hn
        exact hn.2
      | move f hm hc hf hs =>
        refine ⟨f :: fs, ?_, by rw [chunks_cons, modem_chunks_cons, hc, h2], ?_, fun hn => ?_⟩
        · unfold Modem.State.run; rw [hm]; exact h1
        · simp only [List.mem_cons, not_or]; exact ⟨fun h => hf h.symm, h3⟩
        · simp only [List.mem_cons, not_or] at hn ⊢
          exact ⟨fun h => hn.1 (hs h.symm).symm, h4 hn.2⟩

/-- The payload of a message, whatever its type. -/
def bytesOf : Msg → Option (List UInt8)
  | .bytes b => some b
  | _ => none

theorem onCommandReceived_published (s : State) (r : Option PyErr) (m : Msg) :
    (s.onCommandReceived r m).1 = s.published ∨
    ∃ b, m = .bytes b ∧ (s.onCommandReceived r m).1 = s.published ++ [b] := by
  unfold State.onCommandReceived
  split
  · next p hp =>
    cases m with
    | bytes b =>
      simp only [State.tryBody, State.publishToMqtt] at hp
      split at hp
      · cases hp
      · split at hp
        · cases hp
        · split at hp
          · cases hp
          · cases hp; exact .inr ⟨b, rfl, rfl⟩
    | command c => cases hp
    | rebooted n => cases hp
  · exact .inl rfl

theorem onCommandReceived_ready {s : State} (hs : s.stage = .ready) (b : List UInt8) :
    s.onCommandReceived none (.bytes b) = (s.published ++ [b], none) := by
  simp [State.onCommandReceived, State.tryBody, State.publishToMqtt, hs]

theorem onCommandReceived_early {s : State} (hs : s.stage ≠ .ready) (r : Option PyErr) (m : Msg) :
    (s.onCommandReceived r m).1 = s.published := by
  cases m with
  | bytes b =>
    unfold State.onCommandReceived State.tryBody State.publishToMqtt
    by_cases h : s.stage ≠ .client ∧ s.stage ≠ .ready
    · simp [h]
    · simp [h, hs]
  | command c => rfl
  | rebooted n => rfl

/-- The calls of the callback only grow. -/
theorem called_grows {s s' : Modem.State} {f : Modem.Event} (h : s.step f = some s') :
    ∃ l, s'.called = s.called ++ l := by
  cases f with
  | call c =>
    simp only [Modem.State.step] at h
    split at h <;> cases h
    exact ⟨_, (same_startCall s c).handedOver.called⟩
  | main => exact ⟨_, (same_mainStep h).handedOver.called⟩
  | timeout => exact ⟨_, (same_timeoutStep h).handedOver.called⟩
  | rx bs =>
    simp only [Modem.State.step, Modem.State.rxStep] at h
    split at h
    · split at h <;> cases h <;> exact ⟨[], by simp⟩
    · cases h
  | reader =>
    simp only [Modem.State.step, Modem.State.readerStep] at h
    repeat' split at h
    all_goals first | (cases h; done) | (cases h; exact ⟨_, rfl⟩) | (cases h; exact ⟨[], by simp⟩)
  | callbackRaises =>
    simp only [Modem.State.step, Modem.State.raiseStep] at h
    split at h <;> cases h
    · exact ⟨_, rfl⟩
    · exact ⟨[], by simp⟩
  | serialError =>
    simp only [Modem.State.step, Modem.State.serialErrorStep] at h
    split at h <;> cases h
    exact ⟨[], by simp⟩

theorem callback_payloads : ∀ (log : List (Sink × Int × Msg)),
    (∀ x ∈ log, x.1 = .callback → x.2.1 ≤ 3) →
    ((toSink log .callback).filterMap bytesOf).Sublist ((log.map Prod.snd).filterMap payload)
  | [], _ => List.Sublist.refl _
  | (k, t, m) :: log, h => by
    have ih := callback_payloads log fun x hx => h x (by simp [hx])
    unfold toSink at ih ⊢
    by_cases hk : k = .callback
    · have ht : t ≤ 3 := h (k, t, m) (by simp) hk
      subst hk
      cases m with
      | bytes b => simpa [bytesOf, payload, ht] using ih
      | command c => simpa [bytesOf, payload, List.filterMap_cons] using ih
      | rebooted n => simpa [bytesOf, payload, List.filterMap_cons] using ih
    · rw [List.filter_cons_of_neg (by simpa using hk)]
      refine ih.trans ?_
      rw [List.map_cons]
      exact List.Sublist.filterMap _ (List.sublist_cons_self _ _)

/-- What holds in every state: the configuration, the mode of the parser, the modem is connected from the
moment `connect` is called, and ALP and ping messages are payloads. -/
def Inv (s : State) : Prop :=
  s.modem.config = config ∧ s.modem.parser.skipAlpParsing = true ∧
  (s.stage ≠ .made → s.modem.connected = true) ∧
  ∀ x ∈ pending s.modem.reader, x.1 ≤ 3 → ∃ b, x.2 = .bytes b

/-- The message in hand, if any, is not on its way to a list. -/
def Steady : Reader → Prop
  | .unsolicited _ _ _ => False
  | .unsolicitedAppend _ _ _ _ => False
  | _ => True

theorem steady_between {r : Reader} (h : betweenMessages r = true) : Steady r := by
  cases r <;> trivial

theorem finishExecute_connected {s : Modem.State} (h : s.connected = true) (c : Caller) (l : Option Nat) :
    (s.finishExecute c l).connected = true := by
  unfold Modem.State.finishExecute
  cases c with
  | app => exact h
  | connectSkip => exact h
  | connect =>
    simp only
    unfold Modem.State.finishConnect
    split
    · exact h
    · exact h
    · split
      · exact h
      · simp [Modem.State.finish, h]

theorem mainStep_connected {s s' : Modem.State} (hs : s.mainStep = some s') (h : s.connected = true) :
    s'.connected = true := by
  unfold Modem.State.mainStep at hs
  split at hs
  · cases hs
  · cases hs; exact h
  · cases hs; exact h
  · cases hs; exact h
  · cases hs; exact h
  · simp only at hs
    split at hs <;> cases hs
    · exact finishExecute_connected (by exact h) _ _
    · exact h
  · split at hs <;> cases hs
    exact finishExecute_connected h _ _

theorem startExecute_connected (s : Modem.State) (c : Caller) (cmd : Command) (t : Int) :
    (s.startExecute c cmd t).connected = s.connected := by
  unfold Modem.State.startExecute
  simp only
  split <;> rfl

theorem connect_connected {s s' : Modem.State} {r : UInt8} (hc : s.config = config)
    (h : s.step (.call (.connect true r)) = some s') : s'.connected = true := by
  simp only [Modem.State.step] at h
  split at h <;> cases h
  obtain ⟨cmd, hcmd⟩ : ∃ cmd, infoCommand r = .ok cmd := ⟨_, rfl⟩
  simp only [Modem.State.startCall]
  split
  · next h => exact h
  · simp only [hcmd, hc, config, not_true_eq_false, if_false, if_true]
    rw [startExecute_connected]

/-- The messages of a reader after one of its steps were waiting before. -/
theorem readerStep_pending {s s' : Modem.State} (h : s.readerStep = some s') :
    ∀ x ∈ pending s'.reader, x ∈ pending s.reader := by
  unfold Modem.State.readerStep at h
  have hsync : ∀ t m c, s.isSync t m = some c → m = .command c := by
    intro t m c
    cases m <;> simp only [Modem.State.isSync]
    · split <;> simp_all
    · simp
    · simp
  split at h
  · cases h
  · cases h
  · next hr => cases h; rw [hr]; exact fun _ h => h
  · next hr =>
    split at h
    · next c hc =>
      cases h
      rw [hr, hsync _ _ _ hc]
      exact fun _ h => h
    · cases h; rw [hr]; exact fun _ h => h
  all_goals next hr =>
    rw [hr]
    repeat' split at h
    all_goals first
      | (cases h; done)
      | (cases h; exact fun _ h => h)
      | (cases h; exact fun _ h => List.mem_cons_of_mem _ h)

theorem inv_step {s s' : State} {e : Event} (h : Inv s) (hst : s.step e = some s') : Inv s' := by
  obtain ⟨h1, h2, h3, h5⟩ := h
  have same : ∀ {m : Modem.State}, Same s.modem m → SameBuffer m.parser s.modem.parser →
      m.config = config ∧ m.parser.skipAlpParsing = true ∧
      ∀ x ∈ pending m.reader, x.1 ≤ 3 → ∃ b, x.2 = .bytes b := by
    intro m hm hb
    exact ⟨hm.1.trans h1, hb.2.trans h2, by rw [hm.2.1]; exact h5⟩
  cases e with
  | main r =>
    simp only [State.step, State.mainStep] at hst
    split at hst
    · next hg =>
      obtain ⟨m, g, rfl⟩ := Option.map_eq_some_iff.1 hst
      have hc := connect_connected h1 g
      have hb := (step_parser g (by simp)).1
      simp only [Modem.State.step] at g
      split at g <;> cases g
      obtain ⟨a, b, c⟩ := same (same_startCall _ _) hb
      exact ⟨a, b, fun _ => hc, c⟩
    · next hg =>
      split at hst
      · cases hst; exact ⟨h1, h2, fun _ => h3 (by rw [hg]; simp), h5⟩
      · obtain ⟨m, g, rfl⟩ := Option.map_eq_some_iff.1 hst
        obtain ⟨a, b, c⟩ := same (same_mainStep g) (step_parser g (by simp)).1
        exact ⟨a, b, fun _ => mainStep_connected g (h3 (by rw [hg]; simp)), c⟩
    · next hg => cases hst; exact ⟨h1, h2, fun _ => h3 (by rw [hg]; simp), h5⟩
    · next hg => cases hst; exact ⟨h1, h2, fun _ => h3 (by rw [hg]; simp), h5⟩
    · cases hst
  | rx bs =>
    obtain ⟨m, g, rfl⟩ := Option.map_eq_some_iff.1 hst
    have hu := step_untouched g rfl
    simp only [Modem.State.step, Modem.State.rxStep] at g
    split at g
    · obtain ⟨q, o, p1, -, p3, p4⟩ := C38_skip_mode s.modem.parser h2 bs
      rw [p1] at g
      cases g
      refine ⟨h1, p3, h3, ?_⟩
      intro x hx ht
      obtain ⟨-, -, ty, pl, -, -, -, rfl⟩ := p4 x hx (by omega)
      exact ⟨pl, rfl⟩
    · cases g
  | reader r =>
    obtain ⟨g1, g2, -⟩ := readerStep_eq hst
    have hu := step_untouched g1 rfl
    have hb := (step_parser g1 (by simp)).1
    refine ⟨hu.config.trans h1, hb.2.trans h2, ?_, fun x hx => h5 x (readerStep_pending g1 x hx)⟩
    rw [g2, hu.connected]
    exact h3
  | serialError =>
    obtain ⟨m, g, rfl⟩ := Option.map_eq_some_iff.1 hst
    have hu := step_untouched g rfl
    have hb := (step_parser g (by simp)).1
    refine ⟨hu.config.trans h1, hb.2.trans h2, by simp only [hu.connected]; exact h3, ?_⟩
    simp only [Modem.State.step, Modem.State.serialErrorStep] at g
    split at g <;> cases g
    simp [pending]

theorem inv_run {s : State} {es : List Event} (h : init.run es = some s) : Inv s :=
  run_induction h ⟨rfl, rfl, by simp [init], by simp [init, Modem.init, pending]⟩
    fun _ _ _ ha _ hst => inv_step ha hst

theorem payloads_append (a b : List (Int × Msg)) : payloads (a ++ b) = payloads a ++ payloads b :=
  List.filterMap_append ..

/-- The invariant of the modem holds. -/
theorem readerOk_step {s s' : State} {e : Event} (h : ReaderOk s.modem) (hst : s.step e = some s') :
    ReaderOk s'.modem := by
  cases step_moves hst with
  | stay hm => rw [hm]; exact h
  | move f hm => exact (step_handedOver h hm).1

theorem readerOk_run {s : State} {es : List Event} (h : init.run es = some s) : ReaderOk s.modem :=
  run_induction (P := fun s => ReaderOk s.modem) h (init_ok _) fun _ _ _ ha _ hst => readerOk_step ha hst

/-- One step after the set-up. -/
theorem published_step {s0 s s' : State} {e : Event} (hi : Inv s) (hok : ReaderOk s.modem)
    (hr : s.stage = .ready) (hs : Steady s.modem.reader)
    (h : ∃ new done, s.modem.received = s0.modem.received ++ new ∧
      pending s0.modem.reader ++ new = done ++ pending s.modem.reader ∧
      s.published = s0.published ++ payloads done)
    (hp : ∀ x, e ≠ .reader (some x)) (hst : s.step e = some s') :
    Inv s' ∧ s'.stage = .ready ∧ Steady s'.modem.reader ∧
    ∃ new done, s'.modem.received = s0.modem.received ++ new ∧
      pending s0.modem.reader ++ new = done ++ pending s'.modem.reader ∧
      s'.published = s0.published ++ payloads done := by
  refine ⟨inv_step hi hst, ?_⟩
  obtain ⟨new, done, n1, n2, n3⟩ := h
  obtain ⟨h1, h2, h3, h5⟩ := hi
  have hcon : s.modem.connected = true := h3 (by rw [hr]; simp)
  cases e with
  | main r => simp [State.step, State.mainStep, hr] at hst
  | rx bs =>
    obtain ⟨m, g, rfl⟩ := Option.map_eq_some_iff.1 hst
    simp only [Modem.State.step, Modem.State.rxStep] at g
    split at g
    · next hrd =>
      obtain ⟨q, o, p1, -, -, -⟩ := C38_skip_mode s.modem.parser h2 bs
      rw [p1] at g
      cases g
      refine ⟨hr, trivial, new ++ o.cmds, done, by simp [n1], ?_, n3⟩
      rw [← List.append_assoc, n2, hrd]
      simp [pending]
    · cases g
  | serialError =>
    obtain ⟨m, g, rfl⟩ := Option.map_eq_some_iff.1 hst
    simp only [Modem.State.step, Modem.State.serialErrorStep] at g
    split at g <;> cases g
    next hrd => exact ⟨hr, trivial, new, done, n1, by rw [n2, hrd]; rfl, n3⟩
  | reader r =>
    have hrn : r = none := by
      cases r with
      | none => rfl
      | some x => exact absurd rfl (hp x)
    subst hrn
    obtain ⟨g1, g2, g3⟩ := readerStep_eq hst
    have hrec := (step_parser g1 (by simp)).2
    -- a message leaves the queue: it is published if it is a payload
    have gone : ∀ x, pending s.modem.reader = x :: pending s'.modem.reader →
        s'.published = s.published ++ payloads [x] →
        ∃ new done, s'.modem.received = s0.modem.received ++ new ∧
        pending s0.modem.reader ++ new = done ++ pending s'.modem.reader ∧
        s'.published = s0.published ++ payloads done := by
      intro x hx hpub
      refine ⟨new, done ++ [x], hrec.trans n1, by rw [n2, hx]; simp, ?_⟩
      rw [hpub, n3, payloads_append, List.append_assoc]
    have stay : pending s'.modem.reader = pending s.modem.reader → s'.published = s.published →
        ∃ new done, s'.modem.received = s0.modem.received ++ new ∧
        pending s0.modem.reader ++ new = done ++ pending s'.modem.reader ∧
        s'.published = s0.published ++ payloads done :=
      fun hx hpub => ⟨new, done, hrec.trans n1, by rw [n2, hx], by rw [hpub, n3]⟩
    refine ⟨g2.trans hr, ?_⟩
    have hskip : s.modem.config.skip = true := by rw [h1]; rfl
    have hcb : s.modem.config.callback = true := by rw [h1]; rfl
    have hrb : s.modem.config.rebootedCallback = false := by rw [h1]; rfl
    simp only [Modem.State.step] at g1
    unfold Modem.State.readerStep at g1
    cases hrd : s.modem.reader with
    | reading => simp [hrd] at g1
    | dead q => simp [hrd] at g1
    | next q =>
      cases q with
      | nil =>
        simp only [hrd, Option.some.injEq] at g1
        rw [hrd] at g3 stay
        rw [← g1] at stay ⊢
        exact ⟨trivial, stay rfl g3⟩
      | cons x q =>
        obtain ⟨t, m⟩ := x
        have hn : s.modem.isSync t m = none := by
          cases m <;> simp [Modem.State.isSync, hskip]
        simp only [hrd, hn, Option.some.injEq] at g1
        rw [hrd] at g3 stay
        rw [← g1] at stay ⊢
        exact ⟨trivial, stay rfl g3⟩
    | sync t c q => rw [ReaderOk, hrd, hskip] at hok; cases hok.2.2.2.2
    | syncAppend t c n q => rw [ReaderOk, hrd, hskip] at hok; cases hok.2.2.2.2.1
    | syncDone c q =>
      simp only [hrd, Option.some.injEq] at g1
      rw [hrd] at g3 stay
      rw [← g1] at stay ⊢
      exact ⟨trivial, stay rfl g3⟩
    | other t m q =>
      rw [hrd] at g3
      simp only [hrd, hcb, hcon, hrb, true_and, Bool.false_eq_true, if_false] at g1
      by_cases ht : t ≤ 3
      · simp only [ht, if_true, Option.some.injEq] at g1
        rw [hrd] at stay
        rw [← g1] at stay ⊢
        exact ⟨trivial, stay rfl g3⟩
      · simp only [ht, if_false] at g1
        have hpl : payloads [(t, m)] = [] := by
          cases m <;> simp [payloads, payload, ht]
        have drop : some { s.modem with connected := true, reader := .next q } = some s'.modem →
            Steady s'.modem.reader ∧ ∃ new done, s'.modem.received = s0.modem.received ++ new ∧
            pending s0.modem.reader ++ new = done ++ pending s'.modem.reader ∧
            s'.published = s0.published ++ payloads done := by
          intro g
          injection g with g
          rw [hrd] at gone
          rw [← g] at gone ⊢
          exact ⟨trivial, gone (t, m) rfl (by rw [g3, hpl, List.append_nil])⟩
        split at g1
        · injection g1 with g1
          rw [hrd] at stay
          rw [← g1] at stay ⊢
          exact ⟨trivial, stay rfl g3⟩
        · split at g1 <;> exact drop g1
    | callback t m q =>
      rw [ReaderOk, hrd] at hok
      have ht : t ≤ 3 := hok.2.2.2.1
      obtain ⟨b, hb⟩ := h5 (t, m) (by simp [hrd, pending]) ht
      simp only at hb
      subst hb
      rw [hrd] at g3 gone
      simp only [onCommandReceived_ready hr] at g3
      simp only [hrd, Option.some.injEq] at g1
      rw [← g1] at gone ⊢
      exact ⟨trivial, gone (t, .bytes b) rfl (by rw [g3]; simp [payloads, payload, ht])⟩
    | rebootedCallback t m q => rw [ReaderOk, hrd, hrb] at hok; cases hok.2.2.2.2
    | rebooted t m q =>
      simp only [hrd, Option.some.injEq] at g1
      rw [hrd] at g3 stay
      rw [← g1] at stay ⊢
      exact ⟨trivial, stay rfl g3⟩
    | rebootedAppend t m n q =>
      rw [ReaderOk, hrd] at hok
      have ht : t = 5 := hok.2.2.2.1
      simp only [hrd, Option.some.injEq] at g1
      rw [hrd] at g3 gone
      rw [← g1] at gone ⊢
      refine ⟨trivial, gone (t, m) rfl ?_⟩
      rw [g3]
      cases m <;> simp [payloads, payload, ht]
    | unsolicited t m q => rw [hrd] at hs; cases hs
    | unsolicitedAppend t m n q => rw [hrd] at hs; cases hs

end Verif.Mqtt
