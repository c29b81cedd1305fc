import Verif.Spec.Throughput
import Verif.Lemmas.Pushes
import Verif.Lemmas.Site
import Verif.Props.ModemWrite
import Verif.Props.Print

/-! The receiving side of the throughput test: lemmas. -/

namespace Verif.Throughput

open Verif Verif.Serial Verif.Modem

theorem run_induction {P : State → Prop} {s s' : State} {es : List Event} (h : s.run es = some s')
    (hs : P s) (ih : ∀ s e s', P s → e ∈ es → s.step e = some s' → P s') : P s' := by
  induction es generalizing s with
  | nil => cases h; exact hs
  | cons e es ih' =>
    unfold State.run at h
    cases hst : s.step e with
    | none => rw [hst] at h; cases h
    | some s1 =>
      rw [hst] at h
      exact ih' h (ih s e s1 hs (by simp) hst) fun s e' s' a b => ih s e' s' a (by simp [b])

theorem run_append {s s' : State} {es es' : List Event} :
    s.run (es ++ es') = some s' ↔ ∃ s1, s.run es = some s1 ∧ s1.run es' = some s' := by
  induction es generalizing s with
  | nil => simp [State.run]
  | cons e es ih =>
    simp only [List.cons_append, State.run]
    cases s.step e with
    | none => simp
    | some s1 => simpa using ih

def profileWrite (r : UInt8) : Command :=
  ⟨[.regular false false (.writeFileData ⟨⟨32, ⟨0⟩⟩, ⟨16⟩, [56, 1, 0, 0, 0, 0, 0, 0, 0, 0, 0, 0, 0, 10, 86, 255]⟩)],
    none, true, some r.toNat, true, false, none⟩

def classWrite (r : UInt8) : Command :=
  ⟨[.regular false false (.writeFileData ⟨⟨10, ⟨0⟩⟩, ⟨7⟩, [1, 0, 0, 0, 0, 0, 0]⟩)],
    none, true, some r.toNat, true, false, none⟩

theorem profileCommand_eq (r : UInt8) : profileCommand r = .ok (profileWrite r) := rfl

theorem classCommand_eq (r : UInt8) : classCommand r = .ok (classWrite r) := rfl

theorem profile_bytes (r : UInt8) : sendable (profileWrite r) =
    some [0xB4, r, 4, 0x20, 0, 16, 0x38, 1, 0, 0, 0, 0, 0, 0, 0, 0, 0, 0, 0, 10, 86, 255] := by
  have : ∀ n : Fin 256, sendable (profileWrite (UInt8.ofNat n.val)) = some [0xB4, UInt8.ofNat n.val, 4, 0x20, 0, 16, 0x38,
      1, 0, 0, 0, 0, 0, 0, 0, 0, 0, 0, 0, 10, 86, 255] := by decide +kernel
  simpa using this ⟨r.toNat, r.toNat_lt⟩

theorem class_bytes (r : UInt8) : sendable (classWrite r) =
    some [0xB4, r, 4, 0x0A, 0, 7, 1, 0, 0, 0, 0, 0, 0] := by
  have : ∀ n : Fin 256, sendable (classWrite (UInt8.ofNat n.val)) =
      some [0xB4, UInt8.ofNat n.val, 4, 0x0A, 0, 7, 1, 0, 0, 0, 0, 0, 0] := by decide +kernel
  simpa using this ⟨r.toNat, r.toNat_lt⟩

/-- A step of the reading thread is a step of the modem's. -/
theorem readerStep_cases {s s' : State} {env : Print.Env} (h : s.readerStep env = some s') :
    s'.stage = s.stage ∧
    ((∃ t m q l, s.modem.reader = .callback t m q ∧ receiverCallback env s.commands m = .ok l ∧ s'.commands = l ∧
        s.modem.step .reader = some s'.modem) ∨
      (∃ t m q e, s.modem.reader = .callback t m q ∧ receiverCallback env s.commands m = .error e ∧
        s'.commands = s.commands ∧ s.modem.step .callbackRaises = some s'.modem) ∨
      ((∀ t m q, s.modem.reader ≠ .callback t m q) ∧ s'.commands = s.commands ∧
        s.modem.step .reader = some s'.modem)) := by
  unfold State.readerStep at h
  split at h
  · next t m q hr =>
    split at h
    · next l hl =>
      obtain ⟨m', h1, rfl⟩ := Option.map_eq_some_iff.1 h
      exact ⟨rfl, .inl ⟨t, m, q, l, hr, hl, rfl, h1⟩⟩
    · next e hl =>
      obtain ⟨m', h1, rfl⟩ := Option.map_eq_some_iff.1 h
      exact ⟨rfl, .inr (.inl ⟨t, m, q, e, hr, hl, rfl, h1⟩)⟩
  · next hr =>
    obtain ⟨m', h1, rfl⟩ := Option.map_eq_some_iff.1 h
    exact ⟨rfl, .inr (.inr ⟨hr, rfl, h1⟩)⟩

/-- Whose step it is. -/
inductive Kind (s s' : State) (e : Event) : Prop
  | stay (hm : s'.modem = s.modem) (he : (∃ r, e = .main r) ∨ e = .restart)
  | main (f : Modem.Event) (hm : s.modem.step f = some s'.modem) (hc : s'.commands = s.commands)
      (he : ((∃ r, e = .main r) ∧ (f = .main ∨ ∃ c, f = .call c)) ∨ (e = .timeout ∧ f = .timeout))
  | reader (f : Modem.Event) (hm : s.modem.step f = some s'.modem) (hs : s'.stage = s.stage)
      (hf : (∃ bs, f = .rx bs ∧ e = .rx bs) ∨ (f = .reader ∧ ∃ v, e = .reader v) ∨
        (f = .callbackRaises ∧ ∃ v, e = .reader v) ∨ (f = .serialError ∧ e = .serialError))

theorem callStep_cases {s s' : State} {n : Stage} (h : s.callStep n = some s') :
    s'.commands = s.commands ∧
    ((s.modem.main = .idle ∧ s'.modem = s.modem ∧ (s'.stage = n ∨ s'.stage = .failed)) ∨
      (s.modem.step .main = some s'.modem ∧ s'.stage = s.stage)) := by
  unfold State.callStep at h
  split at h
  · next hi =>
    split at h <;> cases h
    · exact ⟨rfl, .inl ⟨hi, rfl, .inr rfl⟩⟩
    · exact ⟨rfl, .inl ⟨hi, rfl, .inl rfl⟩⟩
  · obtain ⟨m, h1, rfl⟩ := Option.map_eq_some_iff.1 h
    exact ⟨rfl, .inr ⟨h1, rfl⟩⟩

theorem executeStep_ok {s s' : State} {n : Stage} {c : Command} (h : s.executeStep n (.ok c) = some s') :
    s.modem.step (.call (.execute c 1)) = some s'.modem ∧ s'.stage = n ∧ s'.commands = s.commands := by
  obtain ⟨m, h1, rfl⟩ := Option.map_eq_some_iff.1 h
  exact ⟨h1, rfl, rfl⟩

theorem step_kind {s s' : State} {e : Event} (h : s.step e = some s') : Kind s s' e := by
  unfold State.step at h
  split at h
  · cases h
  cases e with
  | main r =>
    simp only [State.mainStep] at h
    have call : ∀ n, s.callStep n = some s' → Kind s s' (.main r) := by
      intro n h
      obtain ⟨h1, ⟨-, h2, -⟩ | ⟨h2, -⟩⟩ := callStep_cases h
      · exact .stay h2 (.inl ⟨r, rfl⟩)
      · exact .main _ h2 h1 (.inl ⟨⟨r, rfl⟩, .inl rfl⟩)
    split at h
    · obtain ⟨m, h1, rfl⟩ := Option.map_eq_some_iff.1 h
      exact .main _ h1 rfl (.inl ⟨⟨r, rfl⟩, .inr ⟨_, rfl⟩⟩)
    · exact call _ h
    · rw [profileCommand_eq] at h
      obtain ⟨h1, -, h2⟩ := executeStep_ok h
      exact .main _ h1 h2 (.inl ⟨⟨r, rfl⟩, .inr ⟨_, rfl⟩⟩)
    · exact call _ h
    · rw [classCommand_eq] at h
      obtain ⟨h1, -, h2⟩ := executeStep_ok h
      exact .main _ h1 h2 (.inl ⟨⟨r, rfl⟩, .inr ⟨_, rfl⟩⟩)
    · exact call _ h
    · cases h; exact .stay rfl (.inl ⟨r, rfl⟩)
    · split at h <;> cases h <;> exact .stay rfl (.inl ⟨r, rfl⟩)
    · cases h
    · cases h
  | timeout =>
    obtain ⟨m, h1, rfl⟩ := Option.map_eq_some_iff.1 h
    exact .main _ h1 rfl (.inr ⟨rfl, rfl⟩)
  | restart =>
    simp only at h
    split at h <;> cases h
    exact .stay rfl (.inr rfl)
  | rx bs =>
    obtain ⟨m, h1, rfl⟩ := Option.map_eq_some_iff.1 h
    exact .reader _ h1 rfl (.inl ⟨bs, rfl, rfl⟩)
  | reader env =>
    obtain ⟨h0, ⟨_, _, _, _, _, _, _, h1⟩ | ⟨_, _, _, _, _, _, _, h1⟩ | ⟨_, _, h1⟩⟩ := readerStep_cases h
    · exact .reader _ h1 h0 (.inr (.inl ⟨rfl, env, rfl⟩))
    · exact .reader _ h1 h0 (.inr (.inr (.inl ⟨rfl, env, rfl⟩)))
    · exact .reader _ h1 h0 (.inr (.inl ⟨rfl, env, rfl⟩))
  | serialError =>
    obtain ⟨m, h1, rfl⟩ := Option.map_eq_some_iff.1 h
    exact .reader _ h1 rfl (.inr (.inr (.inr ⟨rfl, rfl⟩)))

theorem chunks_cons (e : Event) (es : List Event) : chunks (e :: es) = chunks [e] ++ chunks es := by
  cases e <;> rfl

theorem chunks_append (a b : List Event) : chunks (a ++ b) = chunks a ++ chunks b := by
  induction a with
  | nil => rfl
  | cons e a ih => rw [List.cons_append, chunks_cons, ih, chunks_cons e a, List.append_assoc]

/-- The modem inside runs as the modem on its own does. -/
theorem run_modem {s s' : State} {es : List Event} (h : s.run es = some s') :
    ∃ fs, s.modem.run fs = some s'.modem ∧ Modem.chunks fs = chunks es ∧
      ((∀ e ∈ es, Steady e) → Modem.Event.serialError ∉ fs) := by
  induction es generalizing s with
  | nil => cases h; exact ⟨[], rfl, rfl, by simp⟩
  | cons e es ih =>
    unfold State.run at h
    cases hst : s.step e with
    | none => rw [hst] at h; cases h
    | some s1 =>
      rw [hst] at h
      obtain ⟨fs, h1, h2, h3⟩ := ih h
      have h3' : (∀ x ∈ e :: es, Steady x) → Modem.Event.serialError ∉ fs :=
        fun hx => h3 fun x hm => hx x (by simp [hm])
      have cons : ∀ f, s.modem.step f = some s1.modem → Modem.chunks [f] = chunks [e] →
          (f = .serialError → e = .serialError) →
          ∃ fs, s.modem.run fs = some s'.modem ∧ Modem.chunks fs = chunks (e :: es) ∧
            ((∀ x ∈ e :: es, Steady x) → Modem.Event.serialError ∉ fs) := by
        intro f hm hc hs
        refine ⟨f :: fs, ?_, by rw [chunks_cons, Mqtt.modem_chunks_cons, hc, h2], fun hx => ?_⟩
        · unfold Modem.State.run; rw [hm]; exact h1
        · simp only [List.mem_cons, not_or]
          refine ⟨fun hf => ?_, h3' hx⟩
          have := hx e (by simp)
          rw [hs hf.symm] at this
          exact this
      cases step_kind hst with
      | stay hm he =>
        refine ⟨fs, hm ▸ h1, ?_, h3'⟩
        rw [chunks_cons, h2]
        rcases he with ⟨r, rfl⟩ | rfl <;> rfl
      | main f hm hc he =>
        refine cons f hm ?_ ?_
        · rcases he with ⟨⟨r, rfl⟩, rfl | ⟨c, rfl⟩⟩ | ⟨rfl, rfl⟩ <;> rfl
        · rcases he with ⟨⟨r, rfl⟩, rfl | ⟨c, rfl⟩⟩ | ⟨rfl, rfl⟩ <;> simp
      | reader f hm hs hf =>
        refine cons f hm ?_ ?_
        · rcases hf with ⟨bs, rfl, rfl⟩ | ⟨rfl, v, rfl⟩ | ⟨rfl, v, rfl⟩ | ⟨rfl, rfl⟩ <;> rfl
        · rcases hf with ⟨bs, rfl, rfl⟩ | ⟨rfl, v, rfl⟩ | ⟨rfl, v, rfl⟩ | ⟨rfl, rfl⟩ <;> simp

/-- The payload of the first frame. -/
abbrev ask1 (r : UInt8) : List UInt8 := [0xB4, r, 1, 0, 0, 8, 1, 2, 0, 17]

/-- The payload of the second frame. -/
abbrev ask2 (r : UInt8) : List UInt8 :=
  [0xB4, r, 4, 0x20, 0, 16, 0x38, 1, 0, 0, 0, 0, 0, 0, 0, 0, 0, 0, 0, 10, 86, 255]

/-- The payload of the third frame. -/
abbrev ask3 (r : UInt8) : List UInt8 := [0xB4, r, 4, 0x0A, 0, 7, 1, 0, 0, 0, 0, 0, 0]

/-- The three commands have been given to the modem. -/
def Given (m : Modem.State) : Prop := ∃ r1 r2 r3 : UInt8, WriteInv [ask1 r1, ask2 r2, ask3 r3] m ∧
  Pu.MainOk (fun t => t = some (r3.toNat : Int)) m ∧ (resetting m.main = false → m.tag = some (r3.toNat : Int))

/-- How far the program is. -/
def Doing (s : State) : Prop :=
  match s.stage with
  | .made => s.modem.main = .idle ∧ s.modem.connected = false ∧ WriteInv [] s.modem ∧ s.commands = none
  | .connecting => (∃ r, WriteInv [ask1 r] s.modem) ∧ s.commands = none
  | .profile => s.modem.main = .idle ∧ (∃ r, WriteInv [ask1 r] s.modem) ∧ s.commands = none
  | .profileRunning => (∃ r1 r2, WriteInv [ask1 r1, ask2 r2] s.modem) ∧ s.commands = none
  | .accessClass => s.modem.main = .idle ∧ (∃ r1 r2, WriteInv [ask1 r1, ask2 r2] s.modem) ∧ s.commands = none
  | .classRunning => Given s.modem ∧ s.commands = none
  | .built => s.modem.main = .idle ∧ Given s.modem ∧ s.commands = none
  | .started => s.modem.main = .idle ∧ Given s.modem ∧ s.commands.isSome = true
  | .running => s.modem.main = .idle ∧ Given s.modem ∧ s.commands.isSome = true ∧ s.modem.uid.isSome = true
  | .failed => True

theorem writeInv_keep {ps : List (List UInt8)} {m m' : Modem.State} {f : Modem.Event} (h : WriteInv ps m)
    (hf : ∀ c, f ≠ .call c) (hst : m.step f = some m') : WriteInv ps m' := by
  have := writeInv_step h hst
  cases f <;> first | exact absurd rfl (hf _) | simpa [asked] using this

theorem reader_uid {m m' : Modem.State} {f : Modem.Event}
    (he : (∃ bs, f = .rx bs) ∨ f = .reader ∨ f = .callbackRaises ∨ f = .serialError)
    (h : m.step f = some m') : m'.uid = m.uid := by
  rcases he with ⟨bs, rfl⟩ | rfl | rfl | rfl
  · simp only [Modem.State.step, Modem.State.rxStep] at h
    repeat' split at h
    all_goals first | cases h; done | (cases h; rfl)
  · simp only [Modem.State.step, Modem.State.readerStep] at h
    repeat' split at h
    all_goals first | cases h; done | (cases h; rfl)
  · simp only [Modem.State.step, Modem.State.raiseStep] at h
    repeat' split at h
    all_goals first | cases h; done | (cases h; rfl)
  · simp only [Modem.State.step, Modem.State.serialErrorStep] at h
    repeat' split at h
    all_goals first | cases h; done | (cases h; rfl)

theorem callback_isSome {env : Print.Env} {l l' : Option (List Command)} {m : Msg}
    (h : receiverCallback env l m = .ok l') : l'.isSome = l.isSome := by
  unfold receiverCallback at h
  split at h
  · split at h
    · next c _ _ =>
      cases hp : Print.command env c with
      | error e => rw [hp] at h; cases h
      | ok t => rw [hp] at h; cases h; rfl
    · next c _ _ _ =>
      cases hp : Examples.received [] c with
      | error e => rw [hp] at h; cases h
      | ok t =>
        rw [hp] at h
        simp only [bind, Except.bind] at h
        split at h <;> cases h
        rfl
  · cases h
  · cases h

theorem reader_commands {s s' : State} {e : Event} {f : Modem.Event} (h : s.step e = some s')
    (hf : (∃ bs, f = .rx bs ∧ e = .rx bs) ∨ (f = .reader ∧ ∃ v, e = .reader v) ∨
        (f = .callbackRaises ∧ ∃ v, e = .reader v) ∨ (f = .serialError ∧ e = .serialError)) :
    s'.commands.isSome = s.commands.isSome := by
  unfold State.step at h
  split at h
  · cases h
  have key : ∀ v, s.readerStep v = some s' → s'.commands.isSome = s.commands.isSome := by
    intro v h
    obtain ⟨h0, ⟨_, _, _, l, _, h1, h2, _⟩ | ⟨_, _, _, _, _, _, h1, _⟩ | ⟨_, h1, _⟩⟩ := readerStep_cases h
    · rw [h2]; exact callback_isSome h1
    · rw [h1]
    · rw [h1]
  rcases hf with ⟨bs, -, rfl⟩ | ⟨-, v, rfl⟩ | ⟨-, v, rfl⟩ | ⟨-, rfl⟩
  · obtain ⟨m, h1, rfl⟩ := Option.map_eq_some_iff.1 h; rfl
  · exact key v h
  · exact key v h
  · obtain ⟨m, h1, rfl⟩ := Option.map_eq_some_iff.1 h; rfl

theorem given_main {m m' : Modem.State} (h : Given m) (hst : m.step .main = some m') : Given m' := by
  obtain ⟨r1, r2, r3, h1, h2, h3⟩ := h
  obtain ⟨-, -, -, -, -, h4, h5⟩ := Pu.mainStep_cases h2 hst
  refine ⟨r1, r2, r3, writeInv_keep h1 (by simp) hst, h4, fun hr => ?_⟩
  rcases h5 hr with h6 | ⟨h6, h7, -⟩
  · exact h6.1
  · rw [h7]; exact h3 h6

theorem given_timeout {m m' : Modem.State} (h : Given m) (hst : m.step .timeout = some m') : Given m' := by
  obtain ⟨r1, r2, r3, h1, h2, h3⟩ := h
  obtain ⟨h4, h5, h6, -⟩ := Pu.timeoutStep_cases (T := fun t => t = some (r3.toNat : Int)) hst
  exact ⟨r1, r2, r3, writeInv_keep h1 (by simp) hst, h5, fun _ => by rw [h4.tag]; exact h3 h6⟩

theorem given_reader {m m' : Modem.State} {f : Modem.Event}
    (he : (∃ bs, f = .rx bs) ∨ f = .reader ∨ f = .callbackRaises ∨ f = .serialError)
    (h : Given m) (hst : m.step f = some m') : Given m' := by
  obtain ⟨r1, r2, r3, h1, h2, h3⟩ := h
  have hq := Pu.readerEvent_same he hst
  refine ⟨r1, r2, r3, writeInv_keep h1 ?_ hst, Pu.mainOk_same hq h2, fun hr => ?_⟩
  · rcases he with ⟨bs, rfl⟩ | rfl | rfl | rfl <;> simp
  · rw [hq.tag]; exact h3 (by rw [← hq.main]; exact hr)

theorem execute_step {m m' : Modem.State} {ps : List (List UInt8)} {c : Command} {bs : List UInt8}
    (h : WriteInv ps m) (hc : sendable c = some bs) (hst : m.step (.call (.execute c 1)) = some m') :
    WriteInv (ps ++ [bs]) m' := by
  have := writeInv_step h hst
  simpa [asked, hc] using this

theorem class_given {m m' : Modem.State} {r1 r2 r3 : UInt8} (hk : m.config.skip = false)
    (h : WriteInv [ask1 r1, ask2 r2] m) (hm : m.main = .idle)
    (hst : m.step (.call (.execute (classWrite r3) 1)) = some m') : Given m' := by
  have hw := execute_step h (class_bytes r3) hst
  simp only [Modem.State.step, if_pos hm, Option.some.injEq] at hst
  subst hst
  simp only [Modem.State.startCall] at hw ⊢
  have hb := buildSerialFrame_sendable (p := m.parser) (n := 2) (by simpa using h.1) (classWrite r3)
  rw [class_bytes] at hb
  obtain ⟨q, hq, -⟩ := hb
  have hmain : (m.startExecute .app (classWrite r3) 1).main =
      .run .resetList .app (some (r3.toNat : Int)) (frame (UInt8.ofNat 2) 1 (ask3 r3)) 1 := by
    unfold Modem.State.startExecute
    rw [hq]
    simp [hk, classWrite]
  refine ⟨r1, r2, r3, hw, ?_, fun hr => ?_⟩
  · unfold Pu.MainOk; rw [hmain]; exact ⟨rfl, fun h => by rcases h with h | h <;> cases h⟩
  · rw [hmain] at hr; cases hr

/-- The modem's configuration. -/
theorem config_eq {es : List Event} {s : State} (h : init.run es = some s) : s.modem.config = config := by
  obtain ⟨fs, h1, -, -⟩ := run_modem h
  obtain ⟨-, log, -, h2⟩ := Modem.run_handedOver (Modem.init_ok config) h1
  exact h2

theorem idle_no {m m' : Modem.State} (hm : m.main = .idle) :
    m.step .main ≠ some m' ∧ m.step .timeout ≠ some m' := by
  simp [Modem.State.step, Modem.State.mainStep, Modem.State.timeoutStep, hm]

theorem doing_reader {s s' : State} {e : Event} {f : Modem.Event} (h : s.step e = some s')
    (hm : s.modem.step f = some s'.modem) (hs : s'.stage = s.stage)
    (hf : (∃ bs, f = .rx bs ∧ e = .rx bs) ∨ (f = .reader ∧ ∃ v, e = .reader v) ∨
        (f = .callbackRaises ∧ ∃ v, e = .reader v) ∨ (f = .serialError ∧ e = .serialError))
    (hd : Doing s) : Doing s' := by
  have he : (∃ bs, f = .rx bs) ∨ f = .reader ∨ f = .callbackRaises ∨ f = .serialError := by
    rcases hf with ⟨bs, h, -⟩ | ⟨h, -⟩ | ⟨h, -⟩ | ⟨h, -⟩
    exacts [.inl ⟨bs, h⟩, .inr (.inl h), .inr (.inr (.inl h)), .inr (.inr (.inr h))]
  have hq := Pu.readerEvent_same he hm
  have hcmd := reader_commands h hf
  have hnone : s.commands = none → s'.commands = none := fun h => by
    rw [h] at hcmd; exact Option.isSome_eq_false_iff.1 hcmd |> Option.isNone_iff_eq_none.1
  have hw : ∀ {ps}, WriteInv ps s.modem → WriteInv ps s'.modem := fun h => writeInv_keep h
    (by rcases he with ⟨bs, rfl⟩ | rfl | rfl | rfl <;> simp) hm
  have hg := fun h => given_reader he h hm
  unfold Doing at hd ⊢
  rw [hs]
  split at hd
  · exact ⟨hq.main.trans hd.1, hq.connected.trans hd.2.1, hw hd.2.2.1, hnone hd.2.2.2⟩
  · obtain ⟨⟨r, h1⟩, h2⟩ := hd; exact ⟨⟨r, hw h1⟩, hnone h2⟩
  · obtain ⟨h0, ⟨r, h1⟩, h2⟩ := hd; exact ⟨hq.main.trans h0, ⟨r, hw h1⟩, hnone h2⟩
  · obtain ⟨⟨r, r', h1⟩, h2⟩ := hd; exact ⟨⟨r, r', hw h1⟩, hnone h2⟩
  · obtain ⟨h0, ⟨r, r', h1⟩, h2⟩ := hd; exact ⟨hq.main.trans h0, ⟨r, r', hw h1⟩, hnone h2⟩
  · exact ⟨hg hd.1, hnone hd.2⟩
  · exact ⟨hq.main.trans hd.1, hg hd.2.1, hnone hd.2.2⟩
  · exact ⟨hq.main.trans hd.1, hg hd.2.1, hcmd.trans hd.2.2⟩
  · exact ⟨hq.main.trans hd.1, hg hd.2.1, hcmd.trans hd.2.2.1, by rw [reader_uid he hm]; exact hd.2.2.2⟩
  · trivial

theorem doing_call {s s' : State} {n : Stage} {P Q : Modem.State → Prop} (h : s.callStep n = some s')
    (hP : P s.modem) (hstep : ∀ m', s.modem.step .main = some m' → P m')
    (hQ : s.modem.main = .idle → P s.modem → Q s.modem) :
    (s'.stage = s.stage ∧ P s'.modem ∨ s'.stage = n ∧ Q s'.modem ∨ s'.stage = .failed) ∧ s'.commands = s.commands := by
  obtain ⟨h1, ⟨h2, h3, h4 | h4⟩ | ⟨h2, h3⟩⟩ := callStep_cases h
  · exact ⟨.inr (.inl ⟨h4, by rw [h3]; exact hQ h2 hP⟩), h1⟩
  · exact ⟨.inr (.inr h4), h1⟩
  · exact ⟨.inl ⟨h3, hstep _ h2⟩, h1⟩

theorem doing_step {s s' : State} {e : Event} (hk : s.modem.config.skip = false) (hd : Doing s)
    (h : s.step e = some s') : Doing s' := by
  have h0 := h
  unfold State.step at h
  split at h
  · cases h
  cases e with
  | rx bs =>
    obtain ⟨m, h1, rfl⟩ := Option.map_eq_some_iff.1 h
    exact doing_reader h0 h1 rfl (.inl ⟨bs, rfl, rfl⟩) hd
  | serialError =>
    obtain ⟨m, h1, rfl⟩ := Option.map_eq_some_iff.1 h
    exact doing_reader h0 h1 rfl (.inr (.inr (.inr ⟨rfl, rfl⟩))) hd
  | reader env =>
    obtain ⟨h2, ⟨_, _, _, _, _, _, _, h1⟩ | ⟨_, _, _, _, _, _, _, h1⟩ | ⟨_, _, h1⟩⟩ := readerStep_cases h
    · exact doing_reader h0 h1 h2 (.inr (.inl ⟨rfl, env, rfl⟩)) hd
    · exact doing_reader h0 h1 h2 (.inr (.inr (.inl ⟨rfl, env, rfl⟩))) hd
    · exact doing_reader h0 h1 h2 (.inr (.inl ⟨rfl, env, rfl⟩)) hd
  | restart =>
    simp only at h
    split at h <;> cases h
    next hs =>
    unfold Doing at hd ⊢
    simp only [hs] at hd ⊢
    exact ⟨hd.1, hd.2.1, rfl, hd.2.2.2⟩
  | timeout =>
    obtain ⟨m, h1, rfl⟩ := Option.map_eq_some_iff.1 h
    have hw : ∀ {ps}, WriteInv ps s.modem → WriteInv ps m := fun h => writeInv_keep h (by simp) h1
    unfold Doing at hd ⊢
    simp only
    split at hd
    · exact absurd h1 (idle_no hd.1).2
    · obtain ⟨⟨r, h2⟩, h3⟩ := hd; exact ⟨⟨r, hw h2⟩, h3⟩
    · exact absurd h1 (idle_no hd.1).2
    · obtain ⟨⟨r, r', h2⟩, h3⟩ := hd; exact ⟨⟨r, r', hw h2⟩, h3⟩
    · exact absurd h1 (idle_no hd.1).2
    · exact ⟨given_timeout hd.1 h1, hd.2⟩
    · exact absurd h1 (idle_no hd.1).2
    · exact absurd h1 (idle_no hd.1).2
    · exact absurd h1 (idle_no hd.1).2
    · trivial
  | main r =>
    simp only [State.mainStep] at h
    unfold Doing at hd
    split at h
    · next hs =>
      simp only [hs] at hd
      obtain ⟨m, h1, rfl⟩ := Option.map_eq_some_iff.1 h
      unfold Doing
      have := writeInv_step hd.2.2.1 h1
      simp [asked, hd.2.1, Mqtt.question_bytes] at this
      exact ⟨⟨r, this⟩, hd.2.2.2⟩
    · next hs =>
      simp only [hs] at hd
      obtain ⟨hc, hcmd⟩ := doing_call (P := fun m => ∃ r, WriteInv [ask1 r] m)
        (Q := fun m => m.main = .idle ∧ ∃ r, WriteInv [ask1 r] m) h hd.1
        (fun m' hm' => hd.1.imp fun r hr => writeInv_keep hr (by simp) hm') (fun h1 h2 => ⟨h1, h2⟩)
      unfold Doing
      rcases hc with ⟨h1, h2⟩ | ⟨h1, h2⟩ | h1
      · rw [h1, hs]; exact ⟨h2, hcmd.trans hd.2⟩
      · rw [h1]; exact ⟨h2.1, h2.2, hcmd.trans hd.2⟩
      · rw [h1]; trivial
    · next hs =>
      simp only [hs] at hd
      rw [profileCommand_eq] at h
      obtain ⟨h1, h2, h3⟩ := executeStep_ok h
      obtain ⟨-, ⟨r1, hw⟩, hcmd⟩ := hd
      unfold Doing
      rw [h2]
      exact ⟨⟨r1, r, execute_step hw (profile_bytes r) h1⟩, h3.trans hcmd⟩
    · next hs =>
      simp only [hs] at hd
      obtain ⟨hc, hcmd⟩ := doing_call (P := fun m => ∃ r1 r2, WriteInv [ask1 r1, ask2 r2] m)
        (Q := fun m => m.main = .idle ∧ ∃ r1 r2, WriteInv [ask1 r1, ask2 r2] m) h hd.1
        (fun m' hm' => hd.1.imp fun r1 => Exists.imp fun r2 hr => writeInv_keep hr (by simp) hm')
        (fun h1 h2 => ⟨h1, h2⟩)
      unfold Doing
      rcases hc with ⟨h1, h2⟩ | ⟨h1, h2⟩ | h1
      · rw [h1, hs]; exact ⟨h2, hcmd.trans hd.2⟩
      · rw [h1]; exact ⟨h2.1, h2.2, hcmd.trans hd.2⟩
      · rw [h1]; trivial
    · next hs =>
      simp only [hs] at hd
      rw [classCommand_eq] at h
      obtain ⟨h1, h2, h3⟩ := executeStep_ok h
      obtain ⟨hi, ⟨r1, r2, hw⟩, hcmd⟩ := hd
      unfold Doing
      rw [h2]
      exact ⟨class_given hk hw hi h1, h3.trans hcmd⟩
    · next hs =>
      simp only [hs] at hd
      obtain ⟨hc, hcmd⟩ := doing_call (P := Given) (Q := fun m => m.main = .idle ∧ Given m) h hd.1
        (fun m' hm' => given_main hd.1 hm') (fun h1 h2 => ⟨h1, h2⟩)
      unfold Doing
      rcases hc with ⟨h1, h2⟩ | ⟨h1, h2⟩ | h1
      · rw [h1, hs]; exact ⟨h2, hcmd.trans hd.2⟩
      · rw [h1]; exact ⟨h2.1, h2.2, hcmd.trans hd.2⟩
      · rw [h1]; trivial
    · next hs =>
      simp only [hs] at hd
      cases h
      exact ⟨hd.1, hd.2.1, rfl⟩
    · next hs =>
      simp only [hs] at hd
      split at h <;> cases h
      · next hu => exact ⟨hd.1, hd.2.1, hd.2.2, hu⟩
      · trivial
    · cases h
    · cases h

theorem doing_run {es : List Event} {s : State} (h : init.run es = some s) : Doing s := by
  have h1 : Doing s ∧ ∃ es, init.run es = some s := by
    refine run_induction (P := fun s => Doing s ∧ ∃ es, init.run es = some s) h ⟨?_, [], rfl⟩ ?_
    · exact ⟨rfl, rfl, ⟨rfl, rfl⟩, rfl⟩
    · rintro a e b ⟨ha, as, hra⟩ - hst
      refine ⟨doing_step (by rw [config_eq hra]; rfl) ha hst, as ++ [e], run_append.2 ⟨a, hra, ?_⟩⟩
      simp [State.run, hst]
  exact h1.1

/-- Once the list exists, it does not vanish. -/
theorem none_step {s s' : State} {e : Event} (h : s.step e = some s') (hn : s'.commands = none) :
    s.commands = none := by
  have hk := step_kind h
  unfold State.step at h
  split at h
  · cases h
  cases e with
  | main r =>
    simp only [State.mainStep] at h
    split at h
    · obtain ⟨m, h1, rfl⟩ := Option.map_eq_some_iff.1 h; exact hn
    · rw [← (callStep_cases h).1]; exact hn
    · rw [profileCommand_eq] at h; rw [← (executeStep_ok h).2.2]; exact hn
    · rw [← (callStep_cases h).1]; exact hn
    · rw [classCommand_eq] at h; rw [← (executeStep_ok h).2.2]; exact hn
    · rw [← (callStep_cases h).1]; exact hn
    · cases h; cases hn
    · split at h <;> cases h <;> exact hn
    · cases h
    · cases h
  | timeout => obtain ⟨m, h1, rfl⟩ := Option.map_eq_some_iff.1 h; exact hn
  | restart => simp only at h; split at h <;> cases h; cases hn
  | rx bs => obtain ⟨m, h1, rfl⟩ := Option.map_eq_some_iff.1 h; exact hn
  | serialError => obtain ⟨m, h1, rfl⟩ := Option.map_eq_some_iff.1 h; exact hn
  | reader env =>
    obtain ⟨-, ⟨_, _, _, l, _, h1, h2, _⟩ | ⟨_, _, _, _, _, _, h1, _⟩ | ⟨_, h1, _⟩⟩ := readerStep_cases h
    · have := callback_isSome h1
      rw [← h2, hn] at this
      exact Option.isNone_iff_eq_none.1 (Option.isSome_eq_false_iff.1 this.symm)
    · rw [← h1]; exact hn
    · rw [← h1]; exact hn

/-- A step leaves the calls of the callback alone, or is one. -/
theorem called_step {s s' : State} {e : Event} (h : s.step e = some s') :
    (s'.modem.called = s.modem.called ∧ (s.modem.reader.isDead = true → s'.modem.reader.isDead = true)) ∨
    ∃ env t x q, s.modem.reader = .callback t x q ∧ s'.modem.called = s.modem.called ++ [x] ∧
      ∀ er, receiverCallback env s.commands x = .error er → s'.modem.reader.isDead = true := by
  have key : ∀ env, s.step (.reader env) = some s' →
      (s'.modem.called = s.modem.called ∧ (s.modem.reader.isDead = true → s'.modem.reader.isDead = true)) ∨
      ∃ env t x q, s.modem.reader = .callback t x q ∧ s'.modem.called = s.modem.called ++ [x] ∧
        ∀ er, receiverCallback env s.commands x = .error er → s'.modem.reader.isDead = true := by
    intro env h
    unfold State.step at h
    split at h
    · cases h
    obtain ⟨-, ⟨t, x, q, l, hr, hcb, -, h1⟩ | ⟨t, x, q, er, hr, hcb, -, h1⟩ | ⟨hr, -, h1⟩⟩ := readerStep_cases h
    all_goals generalize s'.modem = m' at *
    · simp only [Modem.State.step, Modem.State.readerStep, hr] at h1
      cases h1
      exact .inr ⟨env, t, x, q, hr, rfl, fun er he => by rw [hcb] at he; cases he⟩
    · simp only [Modem.State.step, Modem.State.raiseStep, hr] at h1
      cases h1
      exact .inr ⟨env, t, x, q, hr, rfl, fun _ _ => rfl⟩
    · refine .inl ⟨?_, fun hd => step_dead h1 hd⟩
      simp only [Modem.State.step, Modem.State.readerStep] at h1
      split at h1
      all_goals first | (cases h1; done) | (cases h1; rfl) | skip
      all_goals first | (next hq => exact absurd hq (hr _ _ _)) | skip
      all_goals repeat' split at h1
      all_goals first | (cases h1; done) | (cases h1; rfl)
  cases step_kind h with
  | stay hm _ => rw [hm]; exact .inl ⟨rfl, id⟩
  | main f hm _ he =>
    refine .inl ⟨?_, fun hd => step_dead hm hd⟩
    rcases he with ⟨-, rfl | ⟨c, rfl⟩⟩ | ⟨-, rfl⟩
    · exact (same_mainStep hm).2.2.2.1
    · generalize s'.modem = m' at *
      simp only [Modem.State.step] at hm
      split at hm <;> cases hm
      exact (same_startCall s.modem c).2.2.2.1
    · exact (same_timeoutStep hm).2.2.2.1
  | reader f hm _ hf =>
    rcases hf with ⟨bs, rfl, rfl⟩ | ⟨-, env, rfl⟩ | ⟨-, env, rfl⟩ | ⟨rfl, rfl⟩
    · refine .inl ⟨?_, fun hd => step_dead hm hd⟩
      generalize s'.modem = m' at *
      simp only [Modem.State.step, Modem.State.rxStep] at hm
      repeat' split at hm
      all_goals first | (cases hm; done) | (cases hm; rfl)
    · exact key env h
    · exact key env h
    · refine .inl ⟨?_, fun hd => step_dead hm hd⟩
      generalize s'.modem = m' at *
      simp only [Modem.State.step, Modem.State.serialErrorStep] at hm
      repeat' split at hm
      all_goals first | (cases hm; done) | (cases hm; rfl)

/-- A step leaves the list alone, empties it, or is a call of the callback. -/
theorem commands_step {s s' : State} {e : Event} (h : s.step e = some s') :
    s'.commands = s.commands ∨ s'.commands = some [] ∨
      ∃ t x q, s.modem.reader = .callback t x q ∧ s'.modem.called = s.modem.called ++ [x] := by
  unfold State.step at h
  split at h
  · cases h
  cases e with
  | main r =>
    simp only [State.mainStep] at h
    split at h
    · obtain ⟨m, h1, rfl⟩ := Option.map_eq_some_iff.1 h; exact .inl rfl
    · exact .inl (callStep_cases h).1
    · rw [profileCommand_eq] at h; exact .inl (executeStep_ok h).2.2
    · exact .inl (callStep_cases h).1
    · rw [classCommand_eq] at h; exact .inl (executeStep_ok h).2.2
    · exact .inl (callStep_cases h).1
    · cases h; exact .inr (.inl rfl)
    · split at h <;> cases h <;> exact .inl rfl
    · cases h
    · cases h
  | timeout => obtain ⟨m, h1, rfl⟩ := Option.map_eq_some_iff.1 h; exact .inl rfl
  | restart => simp only at h; split at h <;> cases h; exact .inr (.inl rfl)
  | rx bs => obtain ⟨m, h1, rfl⟩ := Option.map_eq_some_iff.1 h; exact .inl rfl
  | serialError => obtain ⟨m, h1, rfl⟩ := Option.map_eq_some_iff.1 h; exact .inl rfl
  | reader env =>
    obtain ⟨-, ⟨t, x, q, l, hr, -, -, h1⟩ | ⟨_, _, _, _, _, _, h1, _⟩ | ⟨_, h1, _⟩⟩ := readerStep_cases h
    · refine .inr (.inr ⟨t, x, q, hr, ?_⟩)
      generalize s'.modem = m' at *
      simp only [Modem.State.step, Modem.State.readerStep, hr] at h1
      cases h1; rfl
    · exact .inl h1
    · exact .inl h1

/-! ### Listening -/

/-- Where a message being handed over goes, if responses have the tag `T`. -/
def Clean (T : Option Int) : Reader → Prop
  | .sync _ c _ => c.tagId = T
  | .syncAppend _ c _ _ => c.tagId = T
  | .other t m _ => ∀ c, m = .command c → t ≤ 3 → c.tagId ≠ T
  | .callback t m _ => t ≤ 3 ∧ ∀ c, m = .command c → c.tagId ≠ T
  | .rebootedCallback t _ _ => 3 < t
  | .rebooted t _ _ => 3 < t
  | .rebootedAppend t _ _ _ => 3 < t
  | .unsolicited _ _ _ => False
  | .unsolicitedAppend _ _ _ _ => False
  | _ => True

theorem clean_between {T : Option Int} {r : Reader} (h : betweenMessages r = true) : Clean T r := by
  cases r <;> first | trivial | cases h

/-- The modem is connected, no call is in progress. -/
structure Listens (T : Option Int) (m : Modem.State) : Prop where
  skip : m.config.skip = false
  callback : m.config.callback = true
  connected : m.connected = true
  tag : m.tag = T
  main : m.main = .idle
  reader : Clean T m.reader

theorem received_fromNode {c : Command} {a : Action} (h : c.interfaceStatus = some a) :
    Examples.received [] c = match fromNode c with
      | true => .ok [c]
      | false => .error .attributeError := by
  unfold Examples.received fromNode
  rw [h]
  simp only
  cases a.operation with
  | interfaceStatus o => cases h : o.status <;> simp [h]
  | _ => rfl

theorem callback_some (env : Print.Env) (l : Option (List Command)) (c : Command) (h : c.interfaceStatus ≠ none) :
    receiverCallback env l (.command c) =
      if fromNode c = true then match l with
        | none => .error .attributeError
        | some l => .ok (some (l ++ [c]))
      else .error .attributeError := by
  obtain ⟨a, ha⟩ := Option.ne_none_iff_exists'.1 h
  unfold receiverCallback
  simp only [ha]
  rw [received_fromNode ha]
  cases fromNode c <;> rfl

theorem callback_counted {T : Option Int} {env : Print.Env} {l : List Command} {t : Int} {m : Msg}
    (ht : t ≤ 3) (hc : ∀ c, m = .command c → c.tagId ≠ T) :
    (∀ l', receiverCallback env (some l) m = .ok l' → l' = some (l ++ (counted T (t, m)).toList)) ∧
    (∀ e, receiverCallback env (some l) m = .error e → counted T (t, m) = none) := by
  cases m with
  | bytes b => exact ⟨fun l' h => (by cases h), fun e h => rfl⟩
  | rebooted b => exact ⟨fun l' h => (by cases h), fun e h => rfl⟩
  | command c =>
    have hne := hc c rfl
    by_cases hi : c.interfaceStatus = none
    · have hf : fromNode c = false := by unfold fromNode; rw [hi]
      unfold receiverCallback counted
      simp only [hi, hf]
      cases hp : Print.command env c with
      | error e => exact ⟨fun l' h => (by cases h), fun _ _ => (by simp)⟩
      | ok t => exact ⟨fun l' h => (by cases h; simp), fun _ h => (by cases h)⟩
    · rw [callback_some env _ c hi]
      unfold counted
      cases hf : fromNode c
      · exact ⟨fun l' h => (by cases h), fun _ _ => (by simp [hf])⟩
      · exact ⟨fun l' h => (by cases h; simp [ht, hne, hf]), fun _ h => (by cases h)⟩

/-- What a step of the modem does to the messages that wait: nothing, or one of them is handed over. -/
theorem listens_step {T : Option Int} {m m' : Modem.State} {f : Modem.Event} (hl : Listens T m)
    (hf : (∃ bs, f = .rx bs) ∨ f = .reader ∨ f = .callbackRaises ∨ f = .serialError)
    (h : m.step f = some m') : Listens T m' ∧ ∃ new, m'.received = m.received ++ new ∧
      ((∃ t x q, m.reader = .callback t x q ∧ t ≤ 3 ∧ (∀ c, x = .command c → c.tagId ≠ T) ∧
          pending m.reader ++ new = (t, x) :: pending m'.reader) ∨
        ((∀ t x q, m.reader ≠ .callback t x q) ∧
          (pending m'.reader).filterMap (counted T) = (pending m.reader ++ new).filterMap (counted T))) := by
  have hq := Pu.readerEvent_same hf h
  have ok : Clean T m'.reader → Listens T m' := fun hr =>
    ⟨by rw [hq.config]; exact hl.skip, by rw [hq.config]; exact hl.callback, by rw [hq.connected]; exact hl.connected,
      by rw [hq.tag]; exact hl.tag, by rw [hq.main]; exact hl.main, hr⟩
  have ho := hl.reader
  have big : ∀ t x, 3 < t → counted T (t, x) = none := by
    intro t x ht
    unfold counted
    split
    · rw [if_neg (by simp only [not_and]; intro h; omega)]
    · rfl
  rcases hf with ⟨bs, rfl⟩ | rfl | rfl | rfl
  · simp only [Modem.State.step, Modem.State.rxStep] at h
    split at h
    · next hr =>
      split at h
      · cases h
        exact ⟨ok trivial, [], by simp, .inr ⟨fun _ _ _ h => (by rw [hr] at h; cases h), by simp [pending, hr]⟩⟩
      · next o _ =>
        cases h
        exact ⟨ok trivial, o.cmds, rfl, .inr ⟨fun _ _ _ h => (by rw [hr] at h; cases h), by simp [pending, hr]⟩⟩
    · cases h
  · simp only [Modem.State.step, Modem.State.readerStep] at h
    split at h
    · cases h
    · cases h
    · next hr =>
      cases h
      exact ⟨ok trivial, [], by simp, .inr ⟨fun _ _ _ h => (by rw [hr] at h; cases h), by simp [pending, hr]⟩⟩
    · next t x q hr =>
      split at h
      · next c hi =>
        cases h
        have hmc : x = .command c ∧ m.tag = c.tagId := by
          unfold Modem.State.isSync at hi
          split at hi
          · split at hi
            · next hh => cases hi; exact ⟨rfl, hh.2.1⟩
            · cases hi
          · cases hi
        refine ⟨ok (show c.tagId = T by rw [← hmc.2]; exact hl.tag), [], by simp,
          .inr ⟨fun _ _ _ h => (by rw [hr] at h; cases h), ?_⟩⟩
        simp [pending, hr, hmc.1]
      · next hi =>
        cases h
        refine ⟨ok (show ∀ c, x = .command c → t ≤ 3 → c.tagId ≠ T from fun c hx ht hc => ?_), [], by simp,
          .inr ⟨fun _ _ _ h => (by rw [hr] at h; cases h), by simp [pending, hr]⟩⟩
        subst hx
        simp only [Modem.State.isSync] at hi
        rw [if_pos ⟨by simp [hl.skip], by rw [hl.tag, hc], ht⟩] at hi
        cases hi
    · next t c q hr =>
      cases h
      rw [hr] at ho
      exact ⟨ok ho, [], by simp, .inr ⟨fun _ _ _ h => (by rw [hr] at h; cases h), by simp [pending, hr]⟩⟩
    · next t c n q hr =>
      cases h
      rw [hr] at ho
      have ho : c.tagId = T := ho
      exact ⟨ok trivial, [], by simp,
        .inr ⟨fun _ _ _ h => (by rw [hr] at h; cases h), by simp [pending, hr, counted, ho]⟩⟩
    · next c q hr =>
      cases h
      exact ⟨ok trivial, [], by simp, .inr ⟨fun _ _ _ h => (by rw [hr] at h; cases h), by simp [pending, hr]⟩⟩
    · next t x q hr =>
      rw [hr] at ho
      split at h
      · next hh =>
        cases h
        exact ⟨ok ⟨hh.2.2, fun c hc => ho c hc hh.2.2⟩, [], by simp,
          .inr ⟨fun _ _ _ h => (by rw [hr] at h; cases h), by simp [pending, hr]⟩⟩
      · next hh =>
        have ht : 3 < t := by
          by_contra ht
          exact hh ⟨hl.callback, hl.connected, by omega⟩
        have hn := big t x ht
        split at h
        · split at h
          · cases h
            exact ⟨ok ht, [], by simp, .inr ⟨fun _ _ _ h => (by rw [hr] at h; cases h), by simp [pending, hr]⟩⟩
          · cases h
            exact ⟨ok ht, [], by simp, .inr ⟨fun _ _ _ h => (by rw [hr] at h; cases h), by simp [pending, hr]⟩⟩
        · split at h
          · cases h
            exact ⟨ok trivial, [], by simp,
              .inr ⟨fun _ _ _ h => (by rw [hr] at h; cases h), by simp [pending, hr, hn]⟩⟩
          · rw [if_neg (by omega)] at h
            cases h
            exact ⟨ok trivial, [], by simp,
              .inr ⟨fun _ _ _ h => (by rw [hr] at h; cases h), by simp [pending, hr, hn]⟩⟩
    · next t x q hr =>
      cases h
      rw [hr] at ho
      exact ⟨ok trivial, [], by simp, .inl ⟨t, x, q, hr, ho.1, ho.2, by simp [pending, hr]⟩⟩
    · next t x q hr =>
      cases h
      rw [hr] at ho
      exact ⟨ok trivial, [], by simp,
        .inr ⟨fun _ _ _ h => (by rw [hr] at h; cases h), by simp [pending, hr, big t x ho]⟩⟩
    · next t x q hr =>
      cases h
      rw [hr] at ho
      exact ⟨ok ho, [], by simp, .inr ⟨fun _ _ _ h => (by rw [hr] at h; cases h), by simp [pending, hr]⟩⟩
    · next t x n q hr =>
      cases h
      rw [hr] at ho
      exact ⟨ok trivial, [], by simp,
        .inr ⟨fun _ _ _ h => (by rw [hr] at h; cases h), by simp [pending, hr, big t x ho]⟩⟩
    · next t x q hr => rw [hr] at ho; exact ho.elim
    · next t x n q hr => rw [hr] at ho; exact ho.elim
  · simp only [Modem.State.step, Modem.State.raiseStep] at h
    split at h
    · next t x q hr =>
      cases h
      rw [hr] at ho
      exact ⟨ok trivial, [], by simp, .inl ⟨t, x, q, hr, ho.1, ho.2, by simp [pending, hr]⟩⟩
    · next t x q hr =>
      cases h
      rw [hr] at ho
      exact ⟨ok trivial, [], by simp,
        .inr ⟨fun _ _ _ h => (by rw [hr] at h; cases h), by simp [pending, hr, big t x ho]⟩⟩
    · cases h
  · simp only [Modem.State.step, Modem.State.serialErrorStep] at h
    split at h
    · next hr =>
      cases h
      exact ⟨ok trivial, [], by simp, .inr ⟨fun _ _ _ h => (by rw [hr] at h; cases h), by simp [pending, hr]⟩⟩
    · cases h

/-- From `s` to `s'` the list grew by what was handed over. -/
def Grown (T : Option Int) (s s' : State) : Prop :=
  ∃ new l l', s'.modem.received = s.modem.received ++ new ∧ s.commands = some l ∧ s'.commands = some l' ∧
    l' ++ (pending s'.modem.reader).filterMap (counted T) =
      l ++ (pending s.modem.reader ++ new).filterMap (counted T)

theorem grown_trans {T : Option Int} {s s1 s' : State} (h1 : Grown T s s1) (h2 : Grown T s1 s') : Grown T s s' := by
  obtain ⟨n1, l1, l1', a1, b1, c1, d1⟩ := h1
  obtain ⟨n2, l2, l2', a2, b2, c2, d2⟩ := h2
  have : l2 = l1' := by rw [c1] at b2; cases b2; rfl
  subst this
  refine ⟨n1 ++ n2, l1, l2', by rw [a2, a1, List.append_assoc], b1, c2, ?_⟩
  rw [d2, List.filterMap_append, ← List.append_assoc, d1, List.append_assoc, ← List.filterMap_append,
    List.append_assoc]

theorem grown_step {T : Option Int} {s s' : State} {e : Event} (hr : s.stage = .running)
    (hl : Listens T s.modem) (hc : s.commands.isSome = true) (he : e ≠ .restart) (h : s.step e = some s') :
    s'.stage = .running ∧ Listens T s'.modem ∧ Grown T s s' := by
  obtain ⟨l, hl0⟩ := Option.isSome_iff_exists.1 hc
  unfold State.step at h
  rw [if_neg (by rw [hr]; decide)] at h
  cases e with
  | main r => simp [State.mainStep, hr] at h
  | restart => exact absurd rfl he
  | timeout =>
    obtain ⟨m, h1, rfl⟩ := Option.map_eq_some_iff.1 h
    exact absurd h1 (idle_no hl.main).2
  | rx bs =>
    obtain ⟨m, h1, rfl⟩ := Option.map_eq_some_iff.1 h
    obtain ⟨h2, new, h3, ⟨t, x, q, h4, -⟩ | ⟨-, h4⟩⟩ := listens_step hl (.inl ⟨bs, rfl⟩) h1
    · simp [Modem.State.step, Modem.State.rxStep, h4] at h1
    · exact ⟨hr, h2, new, l, l, h3, hl0, hl0, by rw [h4]⟩
  | serialError =>
    obtain ⟨m, h1, rfl⟩ := Option.map_eq_some_iff.1 h
    obtain ⟨h2, new, h3, ⟨t, x, q, h4, -⟩ | ⟨-, h4⟩⟩ := listens_step hl (.inr (.inr (.inr rfl))) h1
    · simp [Modem.State.step, Modem.State.serialErrorStep, h4] at h1
    · exact ⟨hr, h2, new, l, l, h3, hl0, hl0, by rw [h4]⟩
  | reader env =>
    obtain ⟨h0, ⟨t, x, q, l', h1, h2, h3, h4⟩ | ⟨t, x, q, l', h1, h2, h3, h4⟩ | ⟨h1, h3, h4⟩⟩ := readerStep_cases h
    · obtain ⟨h5, new, h6, ⟨t', x', q', h7, h8, h9, h10⟩ | ⟨h7, -⟩⟩ := listens_step hl (.inr (.inl rfl)) h4
      · rw [h1] at h7; cases h7
        rw [hl0] at h2
        have hl' := (callback_counted (T := T) h8 h9).1 _ h2
        refine ⟨h0.trans hr, h5, new, l, _, h6, hl0, h3.trans hl', ?_⟩
        rw [h10, List.filterMap_cons, List.append_assoc]
        cases counted T (t, x) <;> rfl
      · exact absurd h1 (h7 _ _ _)
    · obtain ⟨h5, new, h6, ⟨t', x', q', h7, h8, h9, h10⟩ | ⟨h7, -⟩⟩ := listens_step hl (.inr (.inr (.inl rfl))) h4
      · rw [h1] at h7; cases h7
        rw [hl0] at h2
        have hl' := (callback_counted (T := T) h8 h9).2 _ h2
        refine ⟨h0.trans hr, h5, new, l, l, h6, hl0, h3.trans hl0, ?_⟩
        rw [h10, List.filterMap_cons, hl']
      · exact absurd h1 (h7 _ _ _)
    · obtain ⟨h5, new, h6, ⟨t', x', q', h7, -⟩ | ⟨-, h7⟩⟩ := listens_step hl (.inr (.inl rfl)) h4
      · exact absurd h7 (h1 _ _ _)
      · exact ⟨h0.trans hr, h5, new, l, l, h6, hl0, h3.trans hl0, by rw [h7]⟩

theorem grown_run {T : Option Int} {es : List Event} {s s' : State} (hr : s.stage = .running)
    (hl : Listens T s.modem) (hc : s.commands.isSome = true) (he : ∀ e ∈ es, e ≠ .restart)
    (h : s.run es = some s') : s'.stage = .running ∧ Listens T s'.modem ∧ Grown T s s' := by
  induction es generalizing s with
  | nil =>
    cases h
    obtain ⟨l, hl0⟩ := Option.isSome_iff_exists.1 hc
    exact ⟨hr, hl, [], l, l, by simp, hl0, hl0, by simp⟩
  | cons e es ih =>
    unfold State.run at h
    cases hst : s.step e with
    | none => rw [hst] at h; cases h
    | some s1 =>
      rw [hst] at h
      obtain ⟨h1, h2, h3⟩ := grown_step hr hl hc (he e (by simp)) hst
      have h3' := h3
      obtain ⟨_, _, l', _, _, hl', _⟩ := h3'
      obtain ⟨h4, h5, h6⟩ := ih h1 h2 (by rw [hl']; rfl) (fun e hm => he e (by simp [hm])) h
      exact ⟨h4, h5, grown_trans h3 h6⟩

/-! ### The reading thread stays alive -/

/-- The callback does not raise for this message. -/
def Harmless (m : Msg) : Prop := ∃ c, m = .command c ∧
  (c.interfaceStatus = none ∨ fromNode c = true) ∧ ∀ env, ∃ t, Print.command env c = .ok t

theorem callback_harmless {m : Msg} (h : Harmless m) (env : Print.Env) (l : List Command) :
    ∃ l', receiverCallback env (some l) m = .ok (some l') := by
  obtain ⟨c, rfl, h1, h2⟩ := h
  by_cases hi : c.interfaceStatus = none
  · obtain ⟨t, ht⟩ := h2 env
    refine ⟨l, ?_⟩
    unfold receiverCallback
    simp only [hi, ht]
    rfl
  · rw [callback_some env _ c hi, if_pos (h1.resolve_left hi)]
    exact ⟨_, rfl⟩

/-- What the frames deliver is harmless. -/
theorem harmless_valid {f : Sent} (h : f.Valid false) (ha : Attributed f.msg) (ht : f.type.toNat ≤ 3) :
    Harmless f.msg := by
  obtain ⟨-, h⟩ := h
  revert h ha
  generalize f.msg = m
  generalize f.payload = p
  generalize hty : f.type = ty at ht
  intro ha h
  cases h with
  | rebooted r => exact absurd ht (by decide)
  | logging => exact absurd ht (by decide)
  | raw _ _ h => cases h
  | alp _ _ c _ _ _ hp => exact ⟨c, rfl, ha, fun env => Print.C61_command_parsed env hp⟩

/-- Messages wait that are harmless. -/
def Tame (s : State) : Prop := ∀ x ∈ pending s.modem.reader, x.1 ≤ 3 → Harmless x.2

theorem reader_modem {s : State} {T : Option Int} {m' : Modem.State} (hr : s.stage = .running)
    (hl : Listens T s.modem) (hc : s.commands.isSome = true) (ht : Tame s) (env : Print.Env)
    (h : s.modem.step .reader = some m') : ∃ s', s.step (.reader env) = some s' ∧ s'.modem = m' := by
  obtain ⟨l, hl0⟩ := Option.isSome_iff_exists.1 hc
  unfold State.step
  rw [if_neg (by rw [hr]; decide)]
  simp only [State.readerStep]
  split
  · next t m q hq =>
    have h3 := hl.reader
    rw [hq] at h3
    obtain ⟨l', hl'⟩ := callback_harmless (ht (t, m) (by rw [hq]; simp [pending]) h3.1) env l
    rw [hl0, hl']
    simp only [h]
    exact ⟨_, rfl, rfl⟩
  · rw [h]; exact ⟨_, rfl, rfl⟩

theorem pending_reader {m m' : Modem.State} (h : m.step .reader = some m') :
    ∀ x ∈ pending m'.reader, x ∈ pending m.reader := by
  simp only [Modem.State.step, Modem.State.readerStep] at h
  split at h
  all_goals first | (cases h; done) | skip
  all_goals repeat' split at h
  all_goals first
    | (cases h; done)
    | (cases h; simp_all [pending]; done)
    | skip
  all_goals
    next hr _ c hi =>
    cases h
    unfold Modem.State.isSync at hi
    split at hi
    · split at hi
      · cases hi; rw [hr]; exact fun x hx => hx
      · cases hi
    · cases hi

theorem alive_run {T : Option Int} {es : List Event} {s s' : State} (hr : s.stage = .running)
    (hl : Listens T s.modem) (hc : s.commands.isSome = true) (he : ∀ e ∈ es, Steady e)
    (hd : s.modem.reader.isDead = false) (ht : Tame s) (p : Parser) (hp : SameBuffer p s.modem.parser)
    (hf : ∃ q ms errs, feed p (chunks es) = .ok (q, ms, errs) ∧ ∀ x ∈ ms, x.1 ≤ 3 → Harmless x.2)
    (h : s.run es = some s') : s'.modem.reader.isDead = false ∧ Tame s' := by
  induction es generalizing s p with
  | nil => cases h; exact ⟨hd, ht⟩
  | cons e es ih =>
    have h0 := h
    unfold State.run at h
    cases hst : s.step e with
    | none => rw [hst] at h; cases h
    | some s1 =>
      rw [hst] at h
      have hne : e ≠ .restart := fun hx => by
        have := he e (by simp); rw [hx] at this; exact this
      obtain ⟨h1, h2, h3⟩ := grown_step hr hl hc hne hst
      obtain ⟨_, _, l', _, _, hl', _⟩ := h3
      have hc1 : s1.commands.isSome = true := by rw [hl']; rfl
      have he' : ∀ e ∈ es, Steady e := fun e hm => he e (by simp [hm])
      have hstep := hst
      unfold State.step at hst
      rw [if_neg (by rw [hr]; decide)] at hst
      cases e with
      | main r => simp [State.mainStep, hr] at hst
      | restart => exact absurd rfl hne
      | serialError => exact (he .serialError (by simp)).elim
      | timeout =>
        obtain ⟨m, hm, rfl⟩ := Option.map_eq_some_iff.1 hst
        exact absurd hm (idle_no hl.main).2
      | rx bs =>
        obtain ⟨m, hm, rfl⟩ := Option.map_eq_some_iff.1 hst
        have hcg := parse_congr hp bs
        obtain ⟨q, ms, errs, hf, hms⟩ := hf
        simp only [chunks, feed] at hf
        simp only [Modem.State.step, Modem.State.rxStep] at hm
        split at hm
        · next hrd =>
          split at hm
          · next p1 e heq =>
            rw [heq] at hcg
            cases hpp : p.parse bs with
            | mk q x =>
              rw [hpp] at hcg hf
              simp only at hcg
              rw [hcg.2] at hf
              cases hf
          · next p1 o heq =>
            cases hm
            rw [heq] at hcg
            cases hpp : p.parse bs with
            | mk q' x =>
              rw [hpp] at hcg hf
              simp only at hcg
              rw [hcg.2] at hf
              simp only at hf
              split at hf
              · cases hf
              · next r ms' es' hfe =>
                cases hf
                exact ih h1 h2 hc1 he' rfl (fun x hx => hms x (by simp only [pending] at hx; simp [hx])) q' hcg.1
                  ⟨_, _, _, hfe, fun x hx => hms x (by simp [hx])⟩ h
        · cases hm
      | reader env =>
        have key : s.modem.step .reader = some s1.modem := by
          obtain ⟨-, ⟨_, _, _, _, _, _, _, hm⟩ | ⟨t, m, q, e', hq, hcb, -, -⟩ | ⟨-, -, hm⟩⟩ := readerStep_cases hst
          · exact hm
          · have h3 := hl.reader
            rw [hq] at h3
            obtain ⟨l, hl0⟩ := Option.isSome_iff_exists.1 hc
            obtain ⟨l', hl'⟩ := callback_harmless (ht (t, m) (by rw [hq]; simp [pending]) h3.1) env l
            rw [hl0, hl'] at hcb
            cases hcb
          · exact hm
        obtain ⟨⟨b1, b2⟩, -⟩ := step_parser key (fun _ h => by cases h)
        refine ih h1 h2 hc1 he' (readerStep_parser key).2.2 (fun x hx => ht x (pending_reader key x hx)) p
          ⟨hp.1.trans b1.symm, hp.2.trans b2.symm⟩ hf h

theorem drains {T : Option Int} (env : Print.Env) (k : Nat) : ∀ (s : State) (m' : Modem.State), s.stage = .running →
    Listens T s.modem → s.commands.isSome = true → Tame s →
    s.modem.run (List.replicate k .reader) = some m' →
    ∃ s', s.run (List.replicate k (.reader env)) = some s' ∧ s'.modem = m' := by
  induction k with
  | zero => intro s m' _ _ _ _ h; cases h; exact ⟨s, rfl, rfl⟩
  | succ k ih =>
    intro s m' hr hl hc ht h
    simp only [List.replicate_succ, Modem.State.run] at h
    cases hst : s.modem.step .reader with
    | none => rw [hst] at h; cases h
    | some m1 =>
      rw [hst] at h
      obtain ⟨s1, h1, h2⟩ := reader_modem hr hl hc ht env hst
      obtain ⟨h3, h4, h5⟩ := grown_step hr hl hc (by simp) h1
      obtain ⟨_, _, l', _, _, hl', _⟩ := h5
      obtain ⟨s', h6, h7⟩ := ih s1 m' h3 h4 (by rw [hl']; rfl)
        (fun x hx => ht x (pending_reader (by rw [h2]; exact hst) x hx)) (by rw [h2]; exact h)
      refine ⟨s', ?_, h7⟩
      simp only [List.replicate_succ, State.run, h1]
      exact h6

end Verif.Throughput
