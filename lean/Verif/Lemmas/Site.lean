import Verif.Spec.Site
import Verif.Lemmas.Mqtt
import Verif.Lemmas.CallersAlone
import Verif.Props.Mqtt
import Verif.Props.ModemWrite

/-! The MQTT bridge together with a device. -/

namespace Verif.Mqtt

open Verif Verif.Serial Verif.Modem

/-- The question of `connect`, as bytes. -/
def ask (rand : UInt8) : List UInt8 := frame 0 1 [0xB4, rand, 1, 0, 0, 8, 1, 2, 0, 17]

theorem question_bytes (rand : UInt8) :
    sendable (question rand) = some [0xB4, rand, 1, 0, 0, 8, 1, 2, 0, 17] := by
  revert rand
  have : ∀ n : Fin 256, sendable (question (UInt8.ofNat n.val)) =
      some [0xB4, UInt8.ofNat n.val, 1, 0, 0, 8, 1, 2, 0, 17] := by decide +kernel
  intro rand
  have h := this ⟨rand.toNat, rand.toNat_lt⟩
  simpa using h

/-- How far the constructor is, and what it has written. -/
def Doing (s : State) : Prop :=
  match s.stage with
  | .made => s.modem.main = .idle ∧ s.modem.written = [] ∧ s.modem.parser.upCounter = 0 ∧ s.modem.connected = false
  | .connecting => ∃ rand, (s.modem.main = .idle ∧ s.modem.written = ask rand) ∨
      ∃ st tag, st ≠ .wait ∧ s.modem.main = .run st .connectSkip tag (ask rand) 0 ∧ s.modem.written = []
  | _ => ∃ rand, s.modem.main = .idle ∧ s.modem.written = ask rand

theorem doing_other {s s' : State} (h : Doing s) (hst : s'.stage = s.stage) (hm : s'.modem.main = s.modem.main)
    (hw : s'.modem.written = s.modem.written) (hu : s'.modem.parser.upCounter = s.modem.parser.upCounter)
    (hc : s'.modem.connected = s.modem.connected) : Doing s' := by
  unfold Doing at h ⊢
  rw [hst, hm, hw, hu, hc]
  exact h

theorem connect_writes {m m' : Modem.State} {r : UInt8} (hc : m.config = config) (hu : m.parser.upCounter = 0)
    (hn : m.connected = false)
    (h : m.step (.call (.connect true r)) = some m') :
    ∃ tag, m'.main = .run .resetList .connectSkip tag (ask r) 0 ∧ m'.written = m.written := by
  simp only [Modem.State.step] at h
  split at h
  · cases h
    have hb := buildSerialFrame_sendable (p := m.parser) (n := 0) (by rw [hu]; rfl) (question r)
    rw [question_bytes] at hb
    obtain ⟨q, hq, -⟩ := hb
    have hk : m.config.skip = true := by rw [hc]; rfl
    simp only [Modem.State.startCall, hn, infoCommand_eq, hk, Modem.State.startExecute, hq, not_true,
      if_false, if_true, Bool.false_eq_true]
    exact ⟨_, rfl, trivial⟩
  · cases h

theorem doing_step {s s' : State} {e : Event} (hi : Inv s) (h : Doing s) (hst : s.step e = some s') : Doing s' := by
  cases e with
  | main r =>
    simp only [State.step, State.mainStep] at hst
    split at hst
    · next hg =>
      obtain ⟨m, g, rfl⟩ := Option.map_eq_some_iff.1 hst
      rw [Doing, hg] at h
      obtain ⟨h1, h2, h3, h4⟩ := h
      obtain ⟨tag, g1, g2⟩ := connect_writes hi.1 h3 h4 g
      exact ⟨r, .inr ⟨.resetList, tag, by simp, g1, g2.trans h2⟩⟩
    · next hg =>
      rw [Doing, hg] at h
      obtain ⟨rand, h⟩ := h
      split at hst
      · next hidle =>
        cases hst
        rcases h with ⟨h1, h2⟩ | ⟨st, tag, -, h1, -⟩
        · exact ⟨rand, h1, h2⟩
        · rw [h1] at hidle; cases hidle
      · next hidle =>
        obtain ⟨m, g, rfl⟩ := Option.map_eq_some_iff.1 hst
        rcases h with ⟨h1, h2⟩ | ⟨st, tag, h0, h1, h2⟩
        · exact absurd h1 hidle
        · simp only [Modem.State.step, Modem.State.mainStep, h1] at g
          unfold Doing
          simp only [hg]
          refine ⟨rand, ?_⟩
          cases st with
          | wait => exact absurd rfl h0
          | write =>
            simp only [if_true, Option.some.injEq] at g
            subst g
            exact .inl ⟨rfl, by simp [Modem.State.finishExecute, Modem.State.finish, h2]⟩
          | _ =>
            simp only [Option.some.injEq] at g
            subst g
            exact .inr ⟨_, tag, by simp, rfl, h2⟩
    · next hg => cases hst; rw [Doing, hg] at h; exact h
    · next hg => cases hst; rw [Doing, hg] at h; exact h
    · cases hst
  | rx bs =>
    obtain ⟨m, g, rfl⟩ := Option.map_eq_some_iff.1 hst
    have hu := step_untouched g rfl
    exact doing_other h rfl hu.main hu.written (inner_keeps.1 _ g).2.1 hu.connected
  | reader r =>
    obtain ⟨g1, g2, -⟩ := readerStep_eq hst
    have hu := step_untouched g1 rfl
    exact doing_other h g2 hu.main hu.written (inner_keeps.2.1 g1).2.1 hu.connected
  | serialError =>
    obtain ⟨m, g, rfl⟩ := Option.map_eq_some_iff.1 hst
    have hu := step_untouched g rfl
    exact doing_other h rfl hu.main hu.written (inner_keeps.2.2.2 g).2.1 hu.connected

theorem doing_run {es : List Event} {s : State} (h : init.run es = some s) : Doing s := by
  have := run_induction (P := fun s => Inv s ∧ Doing s) h
    ⟨inv_run (es := []) rfl, rfl, rfl, rfl, rfl⟩ fun _ _ _ ha _ hst => ⟨inv_step ha.1 hst, doing_step ha.1 ha.2 hst⟩
  exact this.2

/-- What the main thread can do: it goes on until the set-up is done. -/
theorem main_goes_on {s : State} (h : Doing s) (hr : s.stage ≠ .ready) :
    ∃ s', s.step (.main 0) = some s' := by
  simp only [State.step, State.mainStep]
  unfold Doing at h
  cases hg : s.stage with
  | made =>
    rw [hg] at h
    simp only [Modem.State.step, h.1, if_true]
    exact ⟨_, rfl⟩
  | connecting =>
    rw [hg] at h
    obtain ⟨rand, ⟨h1, h2⟩ | ⟨st, tag, h0, h1, h2⟩⟩ := h
    · simp [h1]
    · cases st with
      | wait => exact absurd rfl h0
      | write => simp [h1, Modem.State.step, Modem.State.mainStep]
      | _ => simp [h1, Modem.State.step, Modem.State.mainStep]
  | beforeClient => exact ⟨_, rfl⟩
  | client => exact ⟨_, rfl⟩
  | ready => exact absurd hg hr

/-- How many steps the main thread has left. -/
def left (s : State) : Nat :=
  match s.stage with
  | .made => 20
  | .connecting =>
    match s.modem.main with
    | .idle => 3
    | .run .resetList _ _ _ _ => 9
    | .run .resetTag _ _ _ _ => 8
    | .run .resetCompleted _ _ _ _ => 7
    | .run .setTag _ _ _ _ => 6
    | .run .write _ _ _ _ => 5
    | .run .wait _ _ _ _ => 4
  | .beforeClient => 2
  | .client => 1
  | .ready => 0

theorem left_step {s s' : State} {r : UInt8} (hi : Inv s) (h : Doing s) (hst : s.step (.main r) = some s') :
    left s' < left s := by
  simp only [State.step, State.mainStep] at hst
  unfold Doing at h
  split at hst
  · next hg =>
    obtain ⟨m, g, rfl⟩ := Option.map_eq_some_iff.1 hst
    rw [hg] at h
    obtain ⟨tag, g1, -⟩ := connect_writes hi.1 h.2.2.1 h.2.2.2 g
    simp [left, hg, g1]
  · next hg =>
    rw [hg] at h
    obtain ⟨rand, h⟩ := h
    split at hst
    · next hidle => cases hst; simp [left, hg, hidle]
    · next hidle =>
      obtain ⟨m, g, rfl⟩ := Option.map_eq_some_iff.1 hst
      rcases h with ⟨h1, h2⟩ | ⟨st, tag, h0, h1, h2⟩
      · exact absurd h1 hidle
      · simp only [Modem.State.step, Modem.State.mainStep, h1] at g
        cases st with
        | wait => exact absurd rfl h0
        | write =>
          simp only [if_true, Option.some.injEq] at g
          subst g
          simp [left, hg, h1, Modem.State.finishExecute, Modem.State.finish]
        | _ =>
          simp only [Option.some.injEq] at g
          subst g
          simp [left, hg, h1]
  · next hg => cases hst; simp [left, hg]
  · next hg => cases hst; simp [left, hg]
  · cases hst

/-- The messages dealt with: those before the end of the set-up are lost, the others are published. `bound` are the
messages received before some moment after the set-up. -/
def Split (bound : List (Int × Msg)) (s : State) : Prop :=
  ∃ done lost, s.modem.received = done ++ pending s.modem.reader ∧ payloads done = lost ++ s.published ∧
    (s.stage ≠ .ready ∨ ¬ Steady s.modem.reader → s.published = []) ∧
    (s.stage = .ready → Steady s.modem.reader → lost <+: payloads bound) ∧
    (s.stage = .ready → ¬ Steady s.modem.reader → payloads (done ++ (pending s.modem.reader).take 1) <+: payloads bound)

theorem payloads_prefix {a b : List (Int × Msg)} (h : a <+: b) : payloads a <+: payloads b :=
  List.IsPrefix.filterMap _ h

theorem done_step {s s' : State} {e : Event} (hok : ReaderOk s.modem) (hst : s.step e = some s')
    {done : List (Int × Msg)} (h : s.modem.received = done ++ pending s.modem.reader) :
    ∃ more, s'.modem.received = (done ++ more) ++ pending s'.modem.reader := by
  cases step_moves hst with
  | stay hm => exact ⟨[], by rw [hm, h]; simp⟩
  | move f hm =>
    obtain ⟨-, log, hl, -⟩ := step_handedOver hok hm
    obtain ⟨new, h1, h2⟩ := hl.messages
    exact ⟨log.map Prod.snd, by rw [h1, h, List.append_assoc, List.append_assoc, ← h2]⟩

theorem early_step {s s' : State} {e : Event} (hr : s.stage ≠ .ready) (hst : s.step e = some s') :
    s'.published = s.published := by
  cases e with
  | main r =>
    simp only [State.step, State.mainStep] at hst
    split at hst
    · obtain ⟨m, g, rfl⟩ := Option.map_eq_some_iff.1 hst; rfl
    · split at hst
      · cases hst; rfl
      · obtain ⟨m, g, rfl⟩ := Option.map_eq_some_iff.1 hst; rfl
    · cases hst; rfl
    · cases hst; rfl
    · cases hst
  | rx bs => obtain ⟨m, g, rfl⟩ := Option.map_eq_some_iff.1 hst; rfl
  | serialError => obtain ⟨m, g, rfl⟩ := Option.map_eq_some_iff.1 hst; rfl
  | reader r =>
    obtain ⟨-, -, g3⟩ := readerStep_eq hst
    rw [g3]
    split
    · exact onCommandReceived_early hr _ _
    · rfl

/-- At the moment the bound is taken. -/
theorem Split.now {bound : List (Int × Msg)} {s : State} (h : Split bound s) : Split s.modem.received s := by
  obtain ⟨done, lost, h1, h2, h3, -, -⟩ := h
  refine ⟨done, lost, h1, h2, h3, fun _ _ => ?_, fun _ _ => ?_⟩
  · have : payloads done <+: payloads s.modem.received := payloads_prefix ⟨_, h1.symm⟩
    exact (List.prefix_append _ _).trans (h2 ▸ this)
  · refine payloads_prefix ?_
    rw [h1]
    exact (List.prefix_append_right_inj _).2 (List.take_prefix _ _)

/-- One step after the set-up. -/
theorem split_step {bound : List (Int × Msg)} {s s' : State} {e : Event} (hi : Inv s) (hok : ReaderOk s.modem)
    (hr : s.stage = .ready) (h : Split bound s) (hp : ∀ x, e ≠ .reader (some x)) (hst : s.step e = some s') :
    Split bound s' ∧ s'.stage = .ready := by
  obtain ⟨done, lost, h1, h2, h3, h4, h5⟩ := h
  by_cases hs : Steady s.modem.reader
  · obtain ⟨-, g1, g2, new, more, g3, g4, g5⟩ := published_step (s0 := s) hi hok hr hs
      ⟨[], [], by simp, by simp, by simp [payloads]⟩ hp hst
    refine ⟨⟨done ++ more, lost, ?_, ?_, fun h => ?_, fun _ _ => h4 hr hs, fun _ h => absurd g2 h⟩, g1⟩
    · rw [g3, h1, List.append_assoc, g4, List.append_assoc]
    · rw [payloads_append, h2, g5, List.append_assoc]
    · rcases h with h | h
      · exact absurd g1 h
      · exact absurd g2 h
  · have hp0 : s.published = [] := h3 (.inr hs)
    have hb := h5 hr hs
    cases e with
    | main r => simp [State.step, State.mainStep, hr] at hst
    | rx bs =>
      obtain ⟨m, g, rfl⟩ := Option.map_eq_some_iff.1 hst
      simp only [Modem.State.step, Modem.State.rxStep] at g
      split at g
      · next hrd => rw [hrd] at hs; exact absurd trivial hs
      · cases g
    | serialError =>
      obtain ⟨m, g, rfl⟩ := Option.map_eq_some_iff.1 hst
      simp only [Modem.State.step, Modem.State.serialErrorStep] at g
      split at g
      · next hrd => rw [hrd] at hs; exact absurd trivial hs
      · cases g
    | reader r =>
      obtain ⟨g1, g2, g3⟩ := readerStep_eq hst
      have hrec := (step_parser g1 (by simp)).2
      simp only [Modem.State.step] at g1
      unfold Modem.State.readerStep at g1
      cases hrd : s.modem.reader with
      | unsolicited t m q =>
        rw [hrd] at g3 h1 hb
        simp only [hrd, Option.some.injEq] at g1
        have hrd' : s'.modem.reader = .unsolicitedAppend t m (s.modem.unsolicited.length - 1) q := by rw [← g1]
        refine ⟨⟨done, lost, ?_, by rw [h2, g3], fun _ => by rw [g3]; exact hp0, fun _ hst => ?_, fun _ _ => ?_⟩,
          g2.trans hr⟩
        · rw [hrec, h1, hrd']; rfl
        · rw [hrd'] at hst; cases hst
        · rw [hrd']; exact hb
      | unsolicitedAppend t m n q =>
        rw [hrd] at g3 h1 hb
        simp only [hrd, Option.some.injEq] at g1
        have hrd' : s'.modem.reader = .next q := by rw [← g1]
        refine ⟨⟨done ++ [(t, m)], payloads (done ++ [(t, m)]), ?_, ?_, fun _ => by rw [g3]; exact hp0,
          fun _ _ => hb, fun _ hn => ?_⟩, g2.trans hr⟩
        · rw [hrec, h1, hrd']; simp [pending]
        · rw [g3, hp0]; simp
        · rw [hrd'] at hn; exact absurd trivial hn
      | _ => rw [hrd] at hs; exact absurd trivial hs

/-- One step before the end of the set-up. -/
theorem split_early {bound : List (Int × Msg)} {s s' : State} {e : Event} (hok : ReaderOk s.modem)
    (hr : s.stage ≠ .ready) (h : Split bound s) (hst : s.step e = some s') : Split s'.modem.received s' := by
  obtain ⟨done, lost, h1, h2, h3, -, -⟩ := h
  obtain ⟨more, hm⟩ := done_step hok hst h1
  have hp : s'.published = [] := (early_step hr hst).trans (h3 (.inl hr))
  refine Split.now (bound := s'.modem.received) ⟨done ++ more, payloads (done ++ more), hm, by simp [hp], fun _ => hp,
    fun _ _ => ?_, fun _ _ => ?_⟩
  · exact payloads_prefix ⟨_, hm.symm⟩
  · refine payloads_prefix ?_
    rw [hm]
    exact (List.prefix_append_right_inj _).2 (List.take_prefix _ _)

theorem split_run {es : List Event} {s : State} (h : init.run es = some s) (hp : PublishWorks es) :
    Split s.modem.received s := by
  have := run_induction (P := fun s => Inv s ∧ ReaderOk s.modem ∧ Split s.modem.received s) h
    ⟨inv_run (es := []) rfl, init_ok _, [], [], rfl, rfl, fun _ => rfl, by simp [init], by simp [init]⟩
    fun a e b ha he hst => by
      refine ⟨inv_step ha.1 hst, readerOk_step ha.2.1 hst, ?_⟩
      by_cases hr : a.stage = .ready
      · exact (split_step ha.1 ha.2.1 hr ha.2.2 (fun x hx => hp x (hx ▸ he)) hst).1.now
      · exact split_early ha.2.1 hr ha.2.2 hst
  exact this.2.2

theorem split_since {es es' : List Event} {s s' : State} (h : init.run es = some s) (hp : PublishWorks es)
    (hr : s.stage = .ready) (h' : s.run es' = some s') (hp' : PublishWorks es') : Split s.modem.received s' := by
  have := run_induction (P := fun x => Inv x ∧ ReaderOk x.modem ∧ Split s.modem.received x ∧ x.stage = .ready) h'
    ⟨inv_run h, readerOk_run h, split_run h hp, hr⟩
    fun a e b ha he hst =>
      ⟨inv_step ha.1 hst, readerOk_step ha.2.1 hst, split_step ha.1 ha.2.1 ha.2.2.2 ha.2.2.1
        (fun x hx => hp' x (hx ▸ he)) hst⟩
  exact this.2.2.1

/-- What a frame means to the bridge. -/
def meant (f : UInt8 × UInt8 × List UInt8) : Sent :=
  ⟨f.1, f.2.1, f.2.2, if f.2.1 = 5 then .rebooted (f.2.2.head?.getD 0).toNat else .bytes f.2.2⟩

def Fine (f : UInt8 × UInt8 × List UInt8) : Prop := f.2.2.length ≤ 255 ∧ (f.2.1 = 5 → f.2.2.length = 1)

theorem meant_valid {f : UInt8 × UInt8 × List UInt8} (h : Fine f) : (meant f).Valid true := by
  obtain ⟨c, t, p⟩ := f
  obtain ⟨h1, h2⟩ := h
  refine ⟨h1, ?_⟩
  simp only [meant]
  by_cases h5 : t = 5
  · subst h5
    have h2 := h2 rfl
    simp only at h2
    match p, h2 with
    | [b], _ => simpa using Carries.rebooted b
  · rw [if_neg h5]
    by_cases h4 : t = 4
    · subst h4; exact .logging _
    · exact .raw _ _ rfl h4 h5

namespace Site

theorem run_cons {s s' : Site} {e : SiteEvent} {es : List SiteEvent} (h : s.run (e :: es) = some s') :
    ∃ s1, s.step e = some s1 ∧ s1.run es = some s' := by
  unfold run at h
  cases hst : s.step e with
  | none => rw [hst] at h; cases h
  | some s1 => rw [hst] at h; exact ⟨s1, rfl, h⟩

theorem run_append {s s1 s' : Site} {es es' : List SiteEvent} (h : s.run es = some s1) (h' : s1.run es' = some s') :
    s.run (es ++ es') = some s' := by
  induction es generalizing s with
  | nil => cases h; exact h'
  | cons e es ih =>
    obtain ⟨s2, h1, h2⟩ := run_cons h
    simp only [List.cons_append, run, h1]
    exact ih h2

/-- The bytes of the frames. -/
def bytes (fs : List (UInt8 × UInt8 × List UInt8)) : List UInt8 := (fs.map fun f => frame f.1 f.2.1 f.2.2).flatten

/-- The bridge runs as on its own, and what it reads is what the device sends. -/
theorem run_bridge {s s' : Site} {es : List SiteEvent} (h : s.run es = some s') :
    ∃ fs new, s.bridge.run fs = some s'.bridge ∧ Event.serialError ∉ fs ∧
      (Accepting es → PublishWorks fs) ∧ s'.sent = s.sent ++ new ∧ (∀ f ∈ new, Fine f) ∧ (Silent es → new = []) ∧
      (chunks fs).flatten ++ s'.line = s.line ++ bytes new := by
  induction es generalizing s with
  | nil => cases h; exact ⟨[], [], rfl, by simp, fun _ => by simp [PublishWorks], by simp, by simp, by simp,
      by simp [chunks, bytes]⟩
  | cons e es ih =>
    obtain ⟨s1, hst, h⟩ := run_cons h
    obtain ⟨fs, new, h1, h2, h3, h4, h5, h6, h7⟩ := ih h
    have hacc : Accepting (e :: es) → PublishWorks fs := fun ha => h3 fun x hx => ha x (by simp [hx])
    have hsil : Silent (e :: es) → new = [] := fun ha => h6 fun a b c hx => ha a b c (by simp [hx])
    have go : ∀ (ev : Event) (b : State), s.bridge.step ev = some b → b = s1.bridge →
        s.bridge.run (ev :: fs) = some s'.bridge := by
      intro ev b hb hbs
      subst hbs
      simp only [State.run, hb]
      exact h1
    cases e with
    | main r =>
      obtain ⟨b, hb, rfl⟩ := Option.map_eq_some_iff.1 hst
      exact ⟨.main r :: fs, new, go _ _ hb rfl, by simp [h2], fun ha x => by simpa using hacc ha x, h4, h5, hsil, h7⟩
    | reader r =>
      obtain ⟨b, hb, rfl⟩ := Option.map_eq_some_iff.1 hst
      refine ⟨.reader r :: fs, new, go _ _ hb rfl, by simp [h2], fun ha x => ?_, h4, h5, hsil, h7⟩
      simp only [List.mem_cons, not_or]
      refine ⟨fun hx => ?_, hacc ha x⟩
      injection hx with hx
      exact ha x (by simp [hx])
    | read n =>
      simp only [step] at hst
      split at hst
      · obtain ⟨b, hb, rfl⟩ := Option.map_eq_some_iff.1 hst
        refine ⟨.rx (s.line.take n) :: fs, new, go _ _ hb rfl, by simp [h2], fun ha x => by simpa using hacc ha x, h4,
          h5, hsil, ?_⟩
        simp only [chunks, List.flatten_cons, List.append_assoc, h7]
        rw [← List.append_assoc, List.take_append_drop]
      · cases hst
    | send c t p =>
      simp only [step] at hst
      split at hst
      · next hf =>
        cases hst
        refine ⟨fs, (c, t, p) :: new, h1, h2, hacc, by simp [h4], ?_, fun ha => absurd (List.mem_cons_self ..) (ha c t p),
          ?_⟩
        · intro f hfm
          rcases List.mem_cons.1 hfm with rfl | hfm
          · exact hf
          · exact h5 f hfm
        · rw [h7]; simp [bytes]
      · cases hst

theorem feed_prefix : ∀ (a b : List (List UInt8)) (p : Parser) {r : Parser × List (Int × Msg) × List ErrorInfo},
    feed p (a ++ b) = .ok r → ∃ q, feed p a = .ok q ∧ q.2.1 <+: r.2.1
  | [], b, p, r, _ => ⟨_, rfl, List.nil_prefix⟩
  | c :: a, b, p, r, h => by
    simp only [List.cons_append, feed] at h ⊢
    cases hp : p.parse c with
    | mk q x =>
      rw [hp] at h
      cases x with
      | error e => cases h
      | ok o =>
        simp only at h ⊢
        cases hf : feed q (a ++ b) with
        | error e => rw [hf] at h; cases h
        | ok y =>
          rw [hf] at h
          obtain ⟨z, hz, hpre⟩ := feed_prefix a b q hf
          rw [hz]
          cases h
          exact ⟨_, rfl, (List.prefix_append_right_inj _).2 hpre⟩

theorem bytes_meant (fs : List (UInt8 × UInt8 × List UInt8)) : bytes fs = ((fs.map meant).map Sent.bytes).flatten := by
  simp only [bytes, List.map_map]
  rfl

theorem payloads_meant (fs : List (UInt8 × UInt8 × List UInt8)) :
    payloads ((fs.map meant).map Sent.delivered) = fs.filterMap fun f => if f.2.1 ≤ 3 then some f.2.2 else none := by
  induction fs with
  | nil => rfl
  | cons f fs ih =>
    have hiff : ((f.2.1.toNat : Int) ≤ 3) ↔ f.2.1 ≤ 3 := by
      rw [UInt8.le_iff_toNat_le]; exact Int.ofNat_le (n := 3)
    have h1 : payload (meant f).delivered = if f.2.1 ≤ 3 then some f.2.2 else none := by
      simp only [meant, Sent.delivered]
      by_cases h5 : f.2.1 = 5
      · simp [payload, h5]
      · simp [payload, h5, hiff]
    unfold payloads at ih ⊢
    simp only [List.map_cons, List.filterMap_cons, h1, ih]

/-- What the bridge has received: the first of the frames the device has sent; if nothing is left on the line, all of
them. -/
theorem received {s : Site} {es : List SiteEvent} (h : start.run es = some s) :
    payloads s.bridge.modem.received <+: s.messages ∧ s.bridge.modem.reader.isDead = false ∧
      (s.line = [] → payloads s.bridge.modem.received = s.messages) := by
  obtain ⟨fs, new, h1, h2, -, h4, h5, -, h7⟩ := run_bridge h
  obtain ⟨ms, m1, m2, m3, m4⟩ := run_modem h1
  have hsent : s.sent = new := h4
  have hval : ∀ f ∈ new.map meant, f.Valid (Parser.new true).skipAlpParsing := by
    intro f hf
    obtain ⟨g, hg, rfl⟩ := List.mem_map.1 hf
    exact meant_valid (h5 g hg)
  have hall := feed_frames (chunks fs ++ [s.line]) (Parser.new true) (new.map meant) hval (by simp) (by
    rw [← bytes_meant]
    simpa [start, Parser.new] using h7)
  obtain ⟨q, hq, hpre⟩ := feed_prefix _ _ _ hall
  have hd : s.bridge.modem.reader.isDead = false :=
    not_dead m1 rfl (Parser.new true) ⟨rfl, rfl⟩ (by rw [m2]; exact ⟨_, hq⟩) (m4 h2) m3
  obtain ⟨p, nw, errs, f1, -, f3⟩ := received_feed m1 hd (Parser.new true) ⟨rfl, rfl⟩
  have hrec : s.bridge.modem.received = nw := f3
  rw [m2, hq] at f1
  injection f1 with f1
  have hnw : q.2.1 = nw := by rw [f1]
  refine ⟨?_, hd, fun hl => ?_⟩
  · rw [hrec, ← hnw, messages, hsent, ← payloads_meant]
    exact payloads_prefix hpre
  · have hb : (Modem.chunks ms).flatten = ((new.map meant).map Sent.bytes).flatten := by
      rw [m2, ← bytes_meant]
      simpa [start, hl] using h7
    rw [C44_frames (config := config) m1 (new.map meant) hval hb (m4 h2) m3, messages, hsent, payloads_meant]

theorem finish_main (n : Nat) : ∀ {s : Site} {es : List SiteEvent}, start.run es = some s → left s.bridge ≤ n →
    ∃ k s', s.run (List.replicate k (.main 0)) = some s' ∧ s'.bridge.stage = .ready := by
  induction n with
  | zero =>
    intro s es h hn
    obtain ⟨fs, -, h1, -⟩ := run_bridge h
    by_cases hr : s.bridge.stage = .ready
    · exact ⟨0, s, rfl, hr⟩
    · obtain ⟨b, hb⟩ := main_goes_on (doing_run h1) hr
      have := left_step (inv_run h1) (doing_run h1) hb
      omega
  | succ n ih =>
    intro s es h hn
    obtain ⟨fs, -, h1, -⟩ := run_bridge h
    by_cases hr : s.bridge.stage = .ready
    · exact ⟨0, s, rfl, hr⟩
    · obtain ⟨b, hb⟩ := main_goes_on (doing_run h1) hr
      have hl := left_step (inv_run h1) (doing_run h1) hb
      have hst : s.step (.main 0) = some { s with bridge := b } := by simp [step, hb]
      obtain ⟨k, s', g1, g2⟩ := ih (s := { s with bridge := b }) (run_append h (es' := [.main 0]) (by simp [run, hst]))
        (show left b ≤ n by omega)
      exact ⟨k + 1, s', by simp [List.replicate_succ, run, hst, g1], g2⟩

theorem reader_goes_on {s : State} {m : Modem.State} (h : s.modem.step .reader = some m) :
    ∃ s', s.step (.reader none) = some s' ∧ s'.modem = m ∧ s'.stage = s.stage := by
  simp only [State.step, State.readerStep]
  split
  · next t x q hr =>
    split
    · next p hp => exact ⟨{ s with modem := m, published := p }, by rw [h]; rfl, rfl, rfl⟩
    · next p e hp =>
      have := onCommandReceived_none s none x
      rw [hp] at this
      cases this
  · exact ⟨{ s with modem := m }, by rw [h]; rfl, rfl, rfl⟩

theorem finish_reading (n : Nat) : ∀ {s : Site}, s.bridge.modem.reader.isDead = false →
    work s.bridge.modem.reader ≤ n →
    ∃ k s', s.run (List.replicate k (.reader none)) = some s' ∧ s'.bridge.stage = s.bridge.stage ∧ s'.line = s.line ∧
      s'.bridge.modem.reader = .reading := by
  induction n with
  | zero =>
    intro s hd hn
    by_cases hr : s.bridge.modem.reader = .reading
    · exact ⟨0, s, rfl, rfl, rfl, hr⟩
    · obtain ⟨m, -, -, h3⟩ := work_step hr hd
      omega
  | succ n ih =>
    intro s hd hn
    by_cases hr : s.bridge.modem.reader = .reading
    · exact ⟨0, s, rfl, rfl, rfl, hr⟩
    · obtain ⟨m, h1, h2, h3⟩ := work_step hr hd
      obtain ⟨b, hb, hm, hs⟩ := reader_goes_on h1
      have hst : s.step (.reader none) = some { s with bridge := b } := by simp [step, hb]
      obtain ⟨k, s', g1, g2, g3, g4⟩ := ih (s := { s with bridge := b }) (by simp only [hm]; exact h2)
        (by simp only [hm]; omega)
      exact ⟨k + 1, s', by simp [List.replicate_succ, run, hst, g1], g2.trans hs, g3, g4⟩

theorem read_all {s : Site} (hr : s.bridge.modem.reader = .reading) (hl : s.line ≠ []) :
    ∃ s', s.run [.read s.line.length] = some s' ∧ s'.line = [] ∧ s'.bridge.stage = s.bridge.stage := by
  have hpos : 0 < s.line.length ∧ s.line.length ≤ s.line.length := ⟨List.length_pos_iff.2 hl, Nat.le_refl _⟩
  have : ∃ m, s.bridge.modem.step (.rx s.line) = some m := by
    simp only [Modem.State.step, Modem.State.rxStep, hr]
    split <;> exact ⟨_, rfl⟩
  obtain ⟨m, hm⟩ := this
  refine ⟨⟨{ s.bridge with modem := m }, s.sent, []⟩, ?_, rfl, rfl⟩
  simp only [run, step]
  rw [if_pos hpos]
  simp [State.step, hm]

end Site

end Verif.Mqtt
