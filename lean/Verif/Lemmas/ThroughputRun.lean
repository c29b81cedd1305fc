import Verif.Spec.ThroughputRun
import Verif.Lemmas.Throughput
import Verif.Lemmas.Nodes

/-! The throughput test with a transmitter and a receiver: lemmas. -/

namespace Verif.Throughput

open Verif Verif.Serial Verif.Modem Verif.Examples

namespace Tr

theorem run_induction {a : Args} {P : Test → Prop} {s s' : Test} {es : List TestEvent} (h : s.run a es = some s')
    (hs : P s) (ih : ∀ s e s', P s → e ∈ es → s.step a e = some s' → P s') : P s' := by
  induction es generalizing s with
  | nil => cases h; exact hs
  | cons e es ih' =>
    unfold Test.run at h
    cases hst : s.step a e with
    | none => rw [hst] at h; cases h
    | some s1 =>
      rw [hst] at h
      exact ih' h (ih s e s1 hs (by simp) hst) fun s e' s' x b => ih s e' s' x (by simp [b])

theorem run_append {a : Args} {s s' : Test} {es es' : List TestEvent} :
    s.run a (es ++ es') = some s' ↔ ∃ s1, s.run a es = some s1 ∧ s1.run a es' = some s' := by
  induction es generalizing s with
  | nil => simp [Test.run]
  | cons e es ih =>
    simp only [List.cons_append, Test.run]
    cases s.step a e with
    | none => simp
    | some s1 => simpa using ih

theorem callStep_cases {s s' : Test} {n : Place} (h : s.callStep n = some s') :
    s'.rx = s.rx ∧ s'.verdicts = s.verdicts ∧
    ((s.tx.main = .idle ∧ s'.tx = s.tx ∧ (s'.place = n ∧ (∀ e, s.tx.outcomes.getLast? ≠ some (.raised e)) ∨
        s'.place = .failed)) ∨
      (s.tx.step .main = some s'.tx ∧ s'.place = s.place)) := by
  unfold Test.callStep at h
  split at h
  · next hi =>
    split at h <;> cases h
    · exact ⟨rfl, rfl, .inl ⟨hi, rfl, .inr rfl⟩⟩
    · next hn => exact ⟨rfl, rfl, .inl ⟨hi, rfl, .inl ⟨rfl, fun e he => hn e he⟩⟩⟩
  · obtain ⟨m, h1, rfl⟩ := Option.map_eq_some_iff.1 h
    exact ⟨rfl, rfl, .inr ⟨h1, rfl⟩⟩

theorem executeStep_ok {s s' : Test} {n : Place} {t : Int} {c : Command} (h : s.executeStep n t (.ok c) = some s') :
    s.tx.step (.call (.execute c t)) = some s'.tx ∧ s'.place = n ∧ s'.rx = s.rx ∧ s'.verdicts = s.verdicts := by
  obtain ⟨m, h1, rfl⟩ := Option.map_eq_some_iff.1 h
  exact ⟨h1, rfl, rfl, rfl⟩

theorem senderProfile_eq (r : UInt8) : senderProfile r = .ok
    ⟨[.regular false false (.writeFileData ⟨⟨32, ⟨0⟩⟩, ⟨16⟩, [56, 0, 0, 0, 0, 0, 0, 0, 0, 0, 0, 0, 0, 10, 86, 255]⟩)],
      none, true, some r.toNat, true, false, none⟩ := rfl

theorem senderProfile_bytes (r : UInt8) : ∀ c, senderProfile r = .ok c → sendable c =
    some [0xB4, r, 4, 0x20, 0, 16, 0x38, 0, 0, 0, 0, 0, 0, 0, 0, 0, 0, 0, 0, 10, 86, 255] := by
  intro c h
  rw [senderProfile_eq] at h
  cases h
  have : ∀ n : Fin 256, sendable ⟨[.regular false false (.writeFileData ⟨⟨32, ⟨0⟩⟩, ⟨16⟩,
      [56, 0, 0, 0, 0, 0, 0, 0, 0, 0, 0, 0, 0, 10, 86, 255]⟩)], none, true,
      some ((UInt8.ofNat n.val).toNat : Int), true, false, none⟩ = some [0xB4, UInt8.ofNat n.val, 4, 0x20, 0, 16, 0x38,
      0, 0, 0, 0, 0, 0, 0, 0, 0, 0, 0, 0, 10, 86, 255] := by decide +kernel
  simpa using this ⟨r.toNat, r.toNat_lt⟩

/-- The command of a run, and what it looks like. -/
theorem phase_sendable (p : Phase) (rand : UInt8) (uid : Nat) (n : Int) :
    ∀ c, p.command rand uid n = .ok c →
      sendable c = if n ≤ p.limit then some (p.bytes rand uid n.toNat) else none := by
  intro c h
  by_cases hu : p.usesUid = true → 0 ≤ (uid : Int) ∧ (uid : Int) ≤ 0xFFFFFFFFFFFFFFFF
  · obtain ⟨cfg, hc, he, -⟩ := cfg_ok p uid hu
    by_cases hn : n ≤ 256
    · rw [command_ok p rand uid n cfg hc hn] at h
      cases h
      have hb := built_emits p rand uid n cfg he hn
      have hl := bytes_length p rand (uid : Int).toNat n.toNat
      unfold sendable
      rw [show bytearray (built rand cfg n).iter = .ok _ from hb]
      simp only [Int.toNat_natCast] at hl ⊢
      by_cases hs : n ≤ p.limit
      · rw [if_pos hs, if_pos (hl.2 (by omega))]
      · rw [if_neg hs, if_neg (fun hx => hs (by have := hl.1 hx; omega))]
    · rw [command_error p rand uid n cfg hc hn] at h
      cases h
  · have : p.usesUid = true ∧ ¬ (0 ≤ (uid : Int) ∧ (uid : Int) ≤ 0xFFFFFFFFFFFFFFFF) := by
      by_contra hx; exact hu fun h => by_contra fun h' => hx ⟨h, h'⟩
    unfold Phase.command at h
    rw [cfg_error p uid this.1 this.2] at h
    cases h

theorem received_cons (e : TestEvent) (es : List TestEvent) : received (e :: es) = received [e] ++ received es := by
  cases e <;> rfl

theorem received_append (a b : List TestEvent) : received (a ++ b) = received a ++ received b := by
  induction a with
  | nil => rfl
  | cons e a ih => rw [List.cons_append, received_cons, ih, received_cons e a, List.append_assoc]

/-- What a step means for the receiver. -/
theorem step_rx {a : Args} {s s' : Test} {e : TestEvent} (h : s.step a e = some s') :
    (s'.rx = s.rx ∧ received [e] = []) ∨
    ∃ f, s.rx.step f = some s'.rx ∧ chunks [f] = received [e] ∧ (f = .serialError → e = .rxError) ∧
      (f = .restart → ∃ p, s.place = .reset p) := by
  unfold Test.step at h
  split at h
  · cases h
  have call : ∀ r n, s.callStep n = some s' → (s'.rx = s.rx ∧ received [.main r] = []) := fun r n h =>
    ⟨(callStep_cases h).1, rfl⟩
  have exec : ∀ r n t x, s.executeStep n t x = some s' → (s'.rx = s.rx ∧ received [.main r] = []) := by
    intro r n t x h
    cases x with
    | error => cases h; exact ⟨rfl, rfl⟩
    | ok c => exact ⟨(executeStep_ok h).2.2.1, rfl⟩
  cases e with
  | main r =>
    simp only [Test.mainStep] at h
    split at h
    · obtain ⟨m, h1, rfl⟩ := Option.map_eq_some_iff.1 h; exact .inl ⟨rfl, rfl⟩
    · exact .inl (call r _ h)
    · exact .inl (exec r _ _ _ h)
    · exact .inl (call r _ h)
    · split at h
      · cases h; exact .inl ⟨rfl, rfl⟩
      split at h
      · cases h; exact .inl ⟨rfl, rfl⟩
      obtain ⟨m, h1, rfl⟩ := Option.map_eq_some_iff.1 h
      exact .inr ⟨_, h1, rfl, by simp, by simp⟩
    · exact .inl (exec r _ _ _ h)
    · exact .inl (call r _ h)
    · next p hp =>
      obtain ⟨m, h1, rfl⟩ := Option.map_eq_some_iff.1 h
      exact .inr ⟨_, h1, rfl, by simp, fun _ => ⟨p, hp⟩⟩
    · split at h
      · cases h
      split at h <;> cases h <;> exact .inl ⟨rfl, rfl⟩
    · cases h; exact .inl ⟨rfl, rfl⟩
    · exact .inl (exec r _ _ _ h)
    · exact .inl (call r _ h)
    · cases h; exact .inl ⟨rfl, rfl⟩
    · split at h
      · split at h <;> cases h; exact .inl ⟨rfl, rfl⟩
      · cases h; exact .inl ⟨rfl, rfl⟩
    · split at h
      · cases h
      split at h <;> cases h <;> exact .inl ⟨rfl, rfl⟩
    · cases h
    · cases h
  | late =>
    simp only at h
    split at h
    · split at h <;> cases h; exact .inl ⟨rfl, rfl⟩
    · cases h
  | sameTime =>
    simp only at h
    split at h <;> cases h; exact .inl ⟨rfl, rfl⟩
  | timeout =>
    simp only at h
    split at h
    · obtain ⟨m, h1, rfl⟩ := Option.map_eq_some_iff.1 h
      exact .inr ⟨_, h1, rfl, by simp, by simp⟩
    · obtain ⟨m, h1, rfl⟩ := Option.map_eq_some_iff.1 h; exact .inl ⟨rfl, rfl⟩
  | txBytes bs => obtain ⟨m, h1, rfl⟩ := Option.map_eq_some_iff.1 h; exact .inl ⟨rfl, rfl⟩
  | txReader => obtain ⟨m, h1, rfl⟩ := Option.map_eq_some_iff.1 h; exact .inl ⟨rfl, rfl⟩
  | txError => obtain ⟨m, h1, rfl⟩ := Option.map_eq_some_iff.1 h; exact .inl ⟨rfl, rfl⟩
  | rxBytes bs =>
    simp only at h
    split at h
    · obtain ⟨m, h1, rfl⟩ := Option.map_eq_some_iff.1 h
      exact .inr ⟨_, h1, rfl, by simp, by simp⟩
    · cases h
  | rxReader v =>
    simp only at h
    split at h
    · obtain ⟨m, h1, rfl⟩ := Option.map_eq_some_iff.1 h
      exact .inr ⟨_, h1, rfl, by simp, by simp⟩
    · cases h
  | rxError =>
    simp only at h
    split at h
    · obtain ⟨m, h1, rfl⟩ := Option.map_eq_some_iff.1 h
      exact .inr ⟨_, h1, rfl, by simp, by simp⟩
    · cases h

/-- The receiver inside runs as on its own. -/
theorem run_rx {a : Args} {s s' : Test} {es : List TestEvent} (h : s.run a es = some s') :
    ∃ fs, s.rx.run fs = some s'.rx ∧ chunks fs = received es ∧
      ((∀ e ∈ es, e ≠ .rxError) → Event.serialError ∉ fs) := by
  induction es generalizing s with
  | nil => cases h; exact ⟨[], rfl, rfl, by simp⟩
  | cons e es ih =>
    unfold Test.run at h
    cases hst : s.step a e with
    | none => rw [hst] at h; cases h
    | some s1 =>
      rw [hst] at h
      obtain ⟨fs, h1, h2, h3⟩ := ih h
      rcases step_rx hst with ⟨h4, h5⟩ | ⟨f, h4, h5, h6, -⟩
      · exact ⟨fs, h4 ▸ h1, by rw [received_cons, h5, h2]; rfl, fun hx => h3 fun x hm => hx x (by simp [hm])⟩
      · refine ⟨f :: fs, ?_, by rw [chunks_cons, h5, h2, ← received_cons], fun hx => ?_⟩
        · unfold State.run; rw [h4]; exact h1
        · simp only [List.mem_cons, not_or]
          exact ⟨fun hf => hx e (by simp) (h6 hf.symm), h3 fun x hm => hx x (by simp [hm])⟩

/-- A step leaves the transmitter alone, or is a step of it. -/
theorem step_tx {a : Args} {s s' : Test} {e : TestEvent} (h : s.step a e = some s')
    (he : (∃ bs, e = .txBytes bs) ∨ e = .txReader ∨ e = .txError) :
    s'.place = s.place ∧ s'.rx = s.rx ∧ s'.verdicts = s.verdicts ∧ ∃ f, s.tx.step f = some s'.tx ∧
      ((∃ bs, f = .rx bs) ∨ f = .reader ∨ f = .callbackRaises ∨ f = .serialError) := by
  unfold Test.step at h
  split at h
  · cases h
  rcases he with ⟨bs, rfl⟩ | rfl | rfl
  · obtain ⟨m, h1, rfl⟩ := Option.map_eq_some_iff.1 h; exact ⟨rfl, rfl, rfl, _, h1, .inl ⟨bs, rfl⟩⟩
  · obtain ⟨m, h1, rfl⟩ := Option.map_eq_some_iff.1 h; exact ⟨rfl, rfl, rfl, _, h1, .inr (.inl rfl)⟩
  · obtain ⟨m, h1, rfl⟩ := Option.map_eq_some_iff.1 h; exact ⟨rfl, rfl, rfl, _, h1, .inr (.inr (.inr rfl))⟩

/-- Steps at the receiver's side that are not of the main thread. -/
theorem step_side {a : Args} {s s' : Test} {e : TestEvent} (h : s.step a e = some s')
    (he : (∃ bs, e = .rxBytes bs) ∨ (∃ v, e = .rxReader v) ∨ e = .rxError) :
    s'.place = s.place ∧ s'.tx = s.tx ∧ s'.verdicts = s.verdicts := by
  unfold Test.step at h
  split at h
  · cases h
  rcases he with ⟨bs, rfl⟩ | ⟨v, rfl⟩ | rfl <;> simp only at h <;> split at h <;> try cases h
  all_goals (obtain ⟨m, h1, rfl⟩ := Option.map_eq_some_iff.1 h; exact ⟨rfl, rfl, rfl⟩)

/-! ### What the transmitter gets -/

/-- Before the messages of a run. -/
def before (a : Args) (uid : Nat) (t : Tags) : Phase → List (List UInt8)
  | .broadcastQos => preparation t ++ [activation t.class1]
  | .broadcast => preparation t ++ [activation t.class1] ++ messages a uid t .broadcastQos ++ [activation t.class2]
  | .unicastQos => preparation t ++ [activation t.class1] ++ messages a uid t .broadcastQos ++ [activation t.class2] ++
      messages a uid t .broadcast
  | .unicast => preparation t ++ [activation t.class1] ++ messages a uid t .broadcastQos ++ [activation t.class2] ++
      messages a uid t .broadcast ++ messages a uid t .unicastQos

/-- Before the access class is written. -/
def entry (a : Args) (uid : Nat) (t : Tags) : Phase → List (List UInt8)
  | .broadcastQos => preparation t
  | .broadcast => preparation t ++ [activation t.class1] ++ messages a uid t .broadcastQos
  | p => before a uid t p

/-- How far the program is: what the transmitter has been given, and what is known at this place. -/
def Cond (a : Args) (t : Tags) (uid : Nat) (ps : List (List UInt8)) (main : Main) (connected : Bool)
    (last : Option Outcome) (stage : Stage) (u : Option Nat) : Place → Prop
  | .connect => ps = [] ∧ main = .idle ∧ connected = false
  | .connecting => ps = (preparation t).take 1
  | .profile => ps = (preparation t).take 1 ∧ main = .idle
  | .profileRunning => ps = preparation t
  | .receiver => ps = preparation t ∧ main = .idle
  | .activate p => ps = entry a uid t p ∧ main = .idle ∧ (p = .broadcastQos ∨ p = .broadcast) ∧ stage = .running ∧ u = some uid
  | .activating p => ps = before a uid t p ∧ stage = .running ∧ u = some uid
  | .reset p => ps = before a uid t p ∧ main = .idle ∧ stage = .running ∧ u = some uid
  | .make p => ps = before a uid t p ∧ main = .idle ∧ stage = .running ∧ u = some uid
  | .send p c k => ps = before a uid t p ++ List.replicate (a.count.toNat - k) (p.bytes (t.message p) uid a.size.toNat) ∧
      main = .idle ∧ p.command (t.message p) uid a.size = .ok c ∧ k ≤ a.count.toNat ∧
      (a.size ≤ p.limit ∨ k = a.count.toNat) ∧ stage = .running ∧ u = some uid
  | .sending p c k => p.command (t.message p) uid a.size = .ok c ∧ k < a.count.toNat ∧
      ((a.size ≤ p.limit ∧
          ps = before a uid t p ++ List.replicate (a.count.toNat - k) (p.bytes (t.message p) uid a.size.toNat)) ∨
        (ps = before a uid t p ∧ main = .idle ∧ ∃ e, last = some (.raised e))) ∧ stage = .running ∧ u = some uid
  | .rate p => ps = before a uid t p ++ messages a uid t p ∧ main = .idle ∧ stage = .running ∧ u = some uid ∧
      (a.size ≤ p.limit ∨ a.count.toNat = 0)
  | .poll p _ => ps = before a uid t p ++ messages a uid t p ∧ main = .idle ∧ stage = .running ∧ u = some uid ∧
      (a.size ≤ p.limit ∨ a.count.toNat = 0)
  | .check p _ => ps = before a uid t p ++ messages a uid t p ∧ main = .idle ∧ stage = .running ∧ u = some uid ∧
      (a.size ≤ p.limit ∨ a.count.toNat = 0)
  | .done => ps = script a uid t ∧ main = .idle ∧ stage = .running ∧ u = some uid ∧
      (a.size ≤ Phase.unicast.limit ∨ a.count.toNat = 0)
  | .failed => ps <+: script a uid t

theorem before_prefix (a : Args) (uid : Nat) (t : Tags) (p : Phase) :
    before a uid t p ++ messages a uid t p <+: script a uid t := by
  cases p with
  | broadcastQos => exact ⟨[activation t.class2] ++ messages a uid t .broadcast ++
      messages a uid t .unicastQos ++ messages a uid t .unicast, by simp [before, script]⟩
  | broadcast => exact ⟨messages a uid t .unicastQos ++ messages a uid t .unicast, by simp [before, script]⟩
  | unicastQos => exact ⟨messages a uid t .unicast, by simp [before, script]⟩
  | unicast => exact ⟨[], by simp [before, script]⟩

theorem entry_prefix (a : Args) (uid : Nat) (t : Tags) (p : Phase) : entry a uid t p <+: before a uid t p := by
  cases p with
  | broadcastQos => exact ⟨[activation t.class1], rfl⟩
  | broadcast => exact ⟨[activation t.class2], rfl⟩
  | unicastQos => exact List.prefix_rfl
  | unicast => exact List.prefix_rfl

theorem prep_prefix (a : Args) (uid : Nat) (t : Tags) : preparation t <+: script a uid t :=
  (entry_prefix a uid t .broadcastQos).trans ((List.prefix_append _ _).trans (before_prefix a uid t .broadcastQos))

theorem replicate_prefix {α : Type} (x : α) {k n : Nat} : List.replicate (n - k) x <+: List.replicate n x :=
  ⟨List.replicate (n - (n - k)) x, by rw [List.replicate_append_replicate]; congr 1; omega⟩

theorem cond_prefix {a : Args} {t : Tags} {uid : Nat} {ps : List (List UInt8)} {main : Main} {connected : Bool}
    {last : Option Outcome} {stage : Stage} {u : Option Nat} {p : Place}
    (h : Cond a t uid ps main connected last stage u p) : ps <+: script a uid t := by
  have hb := fun p => (List.prefix_append _ _).trans (before_prefix a uid t p)
  have hr : ∀ p k, before a uid t p ++ List.replicate (a.count.toNat - k) (p.bytes (t.message p) uid a.size.toNat) <+:
      script a uid t := fun p k =>
    ((List.prefix_append_right_inj _).2 (replicate_prefix _)).trans (before_prefix a uid t p)
  unfold Cond at h
  split at h
  · rw [h.1]; exact List.nil_prefix
  · rw [h]; exact (List.take_prefix _ _).trans (prep_prefix a uid t)
  · rw [h.1]; exact (List.take_prefix _ _).trans (prep_prefix a uid t)
  · rw [h]; exact prep_prefix a uid t
  · rw [h.1]; exact prep_prefix a uid t
  · rw [h.1]; exact (entry_prefix a uid t _).trans (hb _)
  · rw [h.1]; exact hb _
  · rw [h.1]; exact hb _
  · rw [h.1]; exact hb _
  · rw [h.1]; exact hr _ _
  · obtain ⟨-, -, ⟨-, h⟩ | ⟨h, -⟩, -⟩ := h
    · rw [h]; exact hr _ _
    · rw [h]; exact hb _
  · rw [h.1]; exact before_prefix a uid t _
  · rw [h.1]; exact before_prefix a uid t _
  · rw [h.1]; exact before_prefix a uid t _
  · rw [h.1]; exact List.prefix_rfl
  · exact h

/-- The invariant. -/
def Inv (a : Args) (s : Test) : Prop := ∃ t uid ps, WriteInv ps s.tx ∧
  Cond a t uid ps s.tx.main s.tx.connected s.tx.outcomes.getLast? s.rx.stage s.rx.modem.uid s.place

theorem reader_outcomes {m m' : Modem.State} {f : Modem.Event}
    (he : (∃ bs, f = .rx bs) ∨ f = .reader ∨ f = .callbackRaises ∨ f = .serialError)
    (h : m.step f = some m') : m'.outcomes = m.outcomes := by
  rcases he with ⟨bs, rfl⟩ | rfl | rfl | rfl
  · simp only [Modem.State.step, Modem.State.rxStep] at h
    repeat' split at h
    all_goals first | cases h; done | (cases h; rfl)
  · simp only [Modem.State.step, Modem.State.readerStep] at h
    repeat' split at h
    all_goals first | cases h; done | (cases h; rfl)
  · simp only [Modem.State.step, Modem.State.raiseStep] at h
    repeat' split at h
    all_goals first | cases h; done | (cases h; rfl)
  · simp only [Modem.State.step, Modem.State.serialErrorStep] at h
    repeat' split at h
    all_goals first | cases h; done | (cases h; rfl)

theorem failed_inv {a : Args} {s s' : Test} (h : Inv a s) (ht : s'.tx = s.tx) (hp : s'.place = .failed) : Inv a s' := by
  obtain ⟨t, uid, ps, hw, hc⟩ := h
  refine ⟨t, uid, ps, by rw [ht]; exact hw, ?_⟩
  rw [hp]
  exact cond_prefix hc

theorem call_inv {a : Args} {s s' : Test} {n : Place} (hs : Inv a s) (h : s.callStep n = some s')
    (hn : s.tx.main = .idle → (∀ e, s.tx.outcomes.getLast? ≠ some (.raised e)) → ∀ t uid ps, WriteInv ps s.tx →
      Cond a t uid ps s.tx.main s.tx.connected s.tx.outcomes.getLast? s.rx.stage s.rx.modem.uid s.place →
      Cond a t uid ps s.tx.main s.tx.connected s.tx.outcomes.getLast? s.rx.stage s.rx.modem.uid n)
    (hm : s.tx.main ≠ .idle → ∀ m : Modem.State, ∀ t uid ps,
      Cond a t uid ps s.tx.main s.tx.connected s.tx.outcomes.getLast? s.rx.stage s.rx.modem.uid s.place →
      Cond a t uid ps m.main m.connected m.outcomes.getLast? s.rx.stage s.rx.modem.uid s.place) : Inv a s' := by
  obtain ⟨h1, h2, ⟨h3, h4, ⟨h5, h6⟩ | h5⟩ | ⟨h3, h4⟩⟩ := callStep_cases h
  · obtain ⟨t, uid, ps, hw, hc⟩ := hs
    refine ⟨t, uid, ps, by rw [h4]; exact hw, ?_⟩
    rw [h4, h1, h5]
    exact hn h3 h6 t uid ps hw hc
  · exact failed_inv hs h4 h5
  · obtain ⟨t, uid, ps, hw, hc⟩ := hs
    refine ⟨t, uid, ps, writeInv_keep hw (by simp) h3, ?_⟩
    rw [h1, h4]
    exact hm (fun hi => (idle_no hi).1 h3) _ t uid ps hc

theorem execute_write {m m' : Modem.State} {ps : List (List UInt8)} {c : Command} {k : Int}
    (h : WriteInv ps m) (hst : m.step (.call (.execute c k)) = some m') :
    WriteInv (ps ++ (sendable c).toList) m' := by
  have := writeInv_step h hst
  cases hc : sendable c <;> simpa [asked, hc] using this

/-- A command that does not fit: the call raises. -/
theorem execute_raises {m m' : Modem.State} {ps : List (List UInt8)} {c : Command} {k : Int}
    (h : WriteInv ps m) (hc : sendable c = none) (hst : m.step (.call (.execute c k)) = some m') :
    m'.main = .idle ∧ ∃ e, m'.outcomes.getLast? = some (.raised e) := by
  simp only [Modem.State.step] at hst
  split at hst <;> cases hst
  have hb := buildSerialFrame_sendable (p := m.parser) (n := ps.length) h.1 c
  rw [hc] at hb
  obtain ⟨e, hq⟩ := hb
  simp only [Modem.State.startCall]
  unfold Modem.State.startExecute
  rw [hq]
  exact ⟨rfl, e, by simp [Modem.State.finish]⟩

/-- At the receiver nothing changes but the list and what the reading thread does. -/
theorem running_step {s s' : State} {f : Event} (h : s.step f = some s') (hs : s.stage = .running)
    (hm : s.modem.main = .idle) : s'.stage = .running ∧ s'.modem.uid = s.modem.uid := by
  have key : ∀ f m', s.modem.step f = some m' → (∃ bs, f = .rx bs) ∨ f = .reader ∨ f = .callbackRaises ∨
      f = .serialError → m'.uid = s.modem.uid := fun f m' hf he => reader_uid he hf
  unfold State.step at h
  rw [if_neg (by rw [hs]; decide)] at h
  cases f with
  | main r => simp [State.mainStep, hs] at h
  | timeout =>
    obtain ⟨m, h1, rfl⟩ := Option.map_eq_some_iff.1 h
    exact absurd h1 (idle_no hm).2
  | restart => simp only [hs] at h; cases h; exact ⟨rfl, rfl⟩
  | rx bs => obtain ⟨m, h1, rfl⟩ := Option.map_eq_some_iff.1 h; exact ⟨hs, key _ _ h1 (.inl ⟨bs, rfl⟩)⟩
  | serialError => obtain ⟨m, h1, rfl⟩ := Option.map_eq_some_iff.1 h; exact ⟨hs, key _ _ h1 (by simp)⟩
  | reader v =>
    simp only [State.readerStep] at h
    split at h
    · split at h
      · obtain ⟨m, h1, rfl⟩ := Option.map_eq_some_iff.1 h; exact ⟨hs, key _ _ h1 (by simp)⟩
      · obtain ⟨m, h1, rfl⟩ := Option.map_eq_some_iff.1 h; exact ⟨hs, key _ _ h1 (by simp)⟩
    · obtain ⟨m, h1, rfl⟩ := Option.map_eq_some_iff.1 h; exact ⟨hs, key _ _ h1 (by simp)⟩

/-- Until the receiver waits for messages, nothing about it matters. -/
theorem cond_stage {a : Args} {t : Tags} {uid : Nat} {ps : List (List UInt8)} {main : Main} {connected : Bool}
    {last : Option Outcome} {stage stage' : Stage} {u u' : Option Nat} {p : Place}
    (hk : stage = .running → stage' = .running ∧ u' = u)
    (h : Cond a t uid ps main connected last stage u p) : Cond a t uid ps main connected last stage' u' p := by
  cases p with
  | connect => exact h
  | connecting => exact h
  | profile => exact h
  | profileRunning => exact h
  | receiver => exact h
  | activate p => exact ⟨h.1, h.2.1, h.2.2.1, (hk h.2.2.2.1).1, (hk h.2.2.2.1).2.trans h.2.2.2.2⟩
  | activating p => exact ⟨h.1, (hk h.2.1).1, (hk h.2.1).2.trans h.2.2⟩
  | reset p => exact ⟨h.1, h.2.1, (hk h.2.2.1).1, (hk h.2.2.1).2.trans h.2.2.2⟩
  | make p => exact ⟨h.1, h.2.1, (hk h.2.2.1).1, (hk h.2.2.1).2.trans h.2.2.2⟩
  | send p c k =>
    obtain ⟨h1, h2, h3, h4, h5, h6, h7⟩ := h
    exact ⟨h1, h2, h3, h4, h5, (hk h6).1, (hk h6).2.trans h7⟩
  | sending p c k =>
    obtain ⟨h1, h2, h3, h4, h5⟩ := h
    exact ⟨h1, h2, h3, (hk h4).1, (hk h4).2.trans h5⟩
  | rate p => exact ⟨h.1, h.2.1, (hk h.2.2.1).1, (hk h.2.2.1).2.trans h.2.2.2.1, h.2.2.2.2⟩
  | poll p n => exact ⟨h.1, h.2.1, (hk h.2.2.1).1, (hk h.2.2.1).2.trans h.2.2.2.1, h.2.2.2.2⟩
  | check p n => exact ⟨h.1, h.2.1, (hk h.2.2.1).1, (hk h.2.2.1).2.trans h.2.2.2.1, h.2.2.2.2⟩
  | done => exact ⟨h.1, h.2.1, (hk h.2.2.1).1, (hk h.2.2.1).2.trans h.2.2.2.1, h.2.2.2.2⟩
  | failed => exact h

/-- While a method of the transmitter runs, how far it is does not matter. -/
theorem cond_busy {a : Args} {t : Tags} {uid : Nat} {ps : List (List UInt8)} {main main' : Main} {connected connected' : Bool}
    {last last' : Option Outcome} {stage : Stage} {u : Option Nat} {p : Place} (hm : main ≠ .idle)
    (h : Cond a t uid ps main connected last stage u p) : Cond a t uid ps main' connected' last' stage u p := by
  cases p with
  | connecting => exact h
  | profileRunning => exact h
  | activating p => exact h
  | failed => exact h
  | sending p c k =>
    obtain ⟨hcmd, hk, ⟨hl, hps⟩ | ⟨-, hx, -⟩, hs, hu⟩ := h
    · exact ⟨hcmd, hk, .inl ⟨hl, hps⟩, hs, hu⟩
    · exact absurd hx hm
  | profile => exact absurd h.2 hm
  | receiver => exact absurd h.2 hm
  | _ => exact absurd h.2.1 hm

theorem rx_run {a : Args} {s : Test} {es : List TestEvent} (h : Test.start.run a es = some s) :
    ∃ fs, init.run fs = some s.rx := by
  obtain ⟨fs, h1, -⟩ := run_rx h
  exact ⟨fs, h1⟩

theorem rx_idle {s : State} {fs : List Event} (h : init.run fs = some s) (hs : s.stage = .running) :
    s.modem.main = .idle ∧ s.modem.uid.isSome = true := by
  have hd := doing_run h
  unfold Doing at hd
  rw [hs] at hd
  exact ⟨hd.1, hd.2.2.2⟩

theorem same_tx {a : Args} {s s' : Test} (hr : ∃ fs, init.run fs = some s.rx) (h : Inv a s) (hp : s'.place = s.place)
    (ht : s'.tx = s.tx) (hx : s'.rx = s.rx ∨ ∃ f, s.rx.step f = some s'.rx) : Inv a s' := by
  obtain ⟨t, uid, ps, hw, hc⟩ := h
  refine ⟨t, uid, ps, by rw [ht]; exact hw, ?_⟩
  rw [hp, ht]
  refine cond_stage (fun hs => ?_) hc
  rcases hx with hx | ⟨f, hf⟩
  · rw [hx]; exact ⟨hs, rfl⟩
  · obtain ⟨fs, hfs⟩ := hr
    exact running_step hf hs (rx_idle hfs hs).1

theorem replicate_more {α : Type} (x : α) {k n : Nat} (h : k + 1 ≤ n) :
    List.replicate (n - (k + 1)) x ++ [x] = List.replicate (n - k) x := by
  rw [← List.replicate_succ', show n - (k + 1) + 1 = n - k by omega]

theorem inv_main {a : Args} {s s' : Test} {r : UInt8} (hr : ∃ fs, init.run fs = some s.rx) (hi : Inv a s)
    (h : s.mainStep a r = some s') : Inv a s' := by
  have hi' := hi
  unfold Test.mainStep at h
  split at h
  · next hp =>
    obtain ⟨t, uid, ps, hw, hc⟩ := hi
    rw [hp] at hc
    obtain ⟨rfl, hm, hcon⟩ := hc
    obtain ⟨m, h1, rfl⟩ := Option.map_eq_some_iff.1 h
    have := writeInv_step hw h1
    simp [asked, hcon, Mqtt.question_bytes] at this
    exact ⟨{ t with identify := r }, uid, _, this, rfl⟩
  · next hp =>
    refine call_inv hi h (fun hm _ t uid ps _ hc => ?_) (fun hm m t uid ps hc => ?_)
    · rw [hp] at hc; exact ⟨hc, hm⟩
    · rw [hp] at hc ⊢; exact hc
  · next hp =>
    obtain ⟨t, uid, ps, hw, hc⟩ := hi
    rw [hp] at hc
    rw [senderProfile_eq] at h
    obtain ⟨h1, h2, h3, -⟩ := executeStep_ok h
    have := execute_write hw h1
    rw [senderProfile_bytes r _ (senderProfile_eq r), hc.1] at this
    refine ⟨{ t with profile := r }, uid, _, this, ?_⟩
    rw [h2]
    rfl
  · next hp =>
    refine call_inv hi h (fun hm _ t uid ps _ hc => ?_) (fun hm m t uid ps hc => ?_)
    · rw [hp] at hc; exact ⟨hc, hm⟩
    · rw [hp] at hc ⊢; exact hc
  · next hp =>
    split at h
    · next hs =>
      cases h
      obtain ⟨fs, hfs⟩ := hr
      obtain ⟨u, hu⟩ := Option.isSome_iff_exists.1 (rx_idle hfs hs).2
      obtain ⟨t, uid, ps, hw, hc⟩ := hi
      rw [hp] at hc
      exact ⟨t, u, ps, hw, hc.1, hc.2, .inl rfl, hs, hu⟩
    split at h
    · cases h; exact failed_inv hi rfl rfl
    · obtain ⟨m, h1, rfl⟩ := Option.map_eq_some_iff.1 h
      exact same_tx hr hi rfl rfl (.inr ⟨_, h1⟩)
  · next p hp =>
    obtain ⟨t, uid, ps, hw, hc⟩ := hi
    rw [hp] at hc
    obtain ⟨hps, hm, hpp, hs, hu⟩ := hc
    rw [classCommand_eq] at h
    obtain ⟨h1, h2, h3, -⟩ := executeStep_ok h
    have := execute_write hw h1
    rw [class_bytes r, hps] at this
    rcases hpp with rfl | rfl
    · refine ⟨{ t with class1 := r }, uid, _, this, ?_⟩
      rw [h2, h3]
      exact ⟨rfl, hs, hu⟩
    · refine ⟨{ t with class2 := r }, uid, _, this, ?_⟩
      rw [h2, h3]
      exact ⟨rfl, hs, hu⟩
  · next p hp =>
    refine call_inv hi h (fun hm _ t uid ps _ hc => ?_) (fun hm m t uid ps hc => ?_)
    · rw [hp] at hc; exact ⟨hc.1, hm, hc.2⟩
    · rw [hp] at hc ⊢; exact hc
  · next p hp =>
    obtain ⟨m, h1, rfl⟩ := Option.map_eq_some_iff.1 h
    obtain ⟨t, uid, ps, hw, hc⟩ := hi
    rw [hp] at hc
    obtain ⟨hps, hm, hs, hu⟩ := hc
    obtain ⟨fs, hfs⟩ := hr
    obtain ⟨h2, h3⟩ := running_step h1 hs (rx_idle hfs hs).1
    exact ⟨t, uid, ps, hw, hps, hm, h2, h3.trans hu⟩
  · next p hp =>
    split at h
    · cases h
    next u hu =>
    split at h
    · cases h; exact failed_inv hi rfl rfl
    next c hcmd =>
    cases h
    obtain ⟨t, uid, ps, hw, hc⟩ := hi
    rw [hp] at hc
    obtain ⟨hps, hm, hs, hu'⟩ := hc
    have : u = uid := by rw [hu] at hu'; exact Option.some.inj hu'
    subst this
    refine ⟨{ t with message := Function.update t.message p r }, u, ps, hw, ?_, hm, ?_, le_refl _, .inr rfl, hs, hu⟩
    · rw [hps]
      cases p <;> simp [before, preparation, messages, Function.update_of_ne]
    · simpa using hcmd
  · next p c hp =>
    cases h
    obtain ⟨t, uid, ps, hw, hc⟩ := hi
    rw [hp] at hc
    obtain ⟨hps, hm, hcmd, -, hl, hs, hu⟩ := hc
    exact ⟨t, uid, ps, hw, by rw [hps]; rfl, hm, hs, hu, hl.imp_right Eq.symm⟩
  · next p c k hp =>
    obtain ⟨t, uid, ps, hw, hc⟩ := hi
    rw [hp] at hc
    obtain ⟨hps, hm, hcmd, hk, hl, hs, hu⟩ := hc
    obtain ⟨h1, h2, h3, -⟩ := executeStep_ok h
    have hb := phase_sendable p _ _ _ c hcmd
    have := execute_write hw h1
    by_cases hlim : a.size ≤ p.limit
    · rw [hb, if_pos hlim, hps] at this
      refine ⟨t, uid, _, this, ?_⟩
      rw [h2, h3]
      refine ⟨hcmd, by omega, .inl ⟨hlim, ?_⟩, hs, hu⟩
      rw [← replicate_more _ hk]
      simp
    · have hk' : k + 1 = a.count.toNat := hl.resolve_left hlim
      obtain ⟨h4, h5⟩ := execute_raises hw (by rw [hb, if_neg hlim]) h1
      rw [hb, if_neg hlim, hps] at this
      refine ⟨t, uid, _, this, ?_⟩
      rw [h2, h3]
      refine ⟨hcmd, by omega, .inr ⟨?_, h4, h5⟩, hs, hu⟩
      rw [← hk']; simp
  · next p c k hp =>
    refine call_inv hi h (fun hm hn t uid ps _ hc => ?_) (fun hm m t uid ps hc => ?_)
    · rw [hp] at hc
      obtain ⟨hcmd, hk, ⟨hl, hps⟩ | ⟨-, -, e, he⟩, hs, hu⟩ := hc
      · exact ⟨hps, hm, hcmd, by omega, .inl hl, hs, hu⟩
      · exact absurd he (hn e)
    · rw [hp] at hc ⊢
      obtain ⟨hcmd, hk, ⟨hl, hps⟩ | ⟨-, hx, -⟩, hs, hu⟩ := hc
      · exact ⟨hcmd, hk, .inl ⟨hl, hps⟩, hs, hu⟩
      · exact absurd hx hm
  · next p hp =>
    cases h
    obtain ⟨t, uid, ps, hw, hc⟩ := hi
    rw [hp] at hc
    exact ⟨t, uid, ps, hw, hc⟩
  · next p n hp =>
    obtain ⟨t, uid, ps, hw, hc⟩ := hi
    rw [hp] at hc
    split at h
    · split at h <;> cases h
      exact ⟨t, uid, ps, hw, hc⟩
    · cases h
      exact ⟨t, uid, ps, hw, hc⟩
  · next p n hp =>
    split at h
    · cases h
    split at h
    · cases h; exact failed_inv hi rfl rfl
    cases h
    obtain ⟨t, uid, ps, hw, hc⟩ := hi
    rw [hp] at hc
    obtain ⟨hps, hm, hs, hu, hl⟩ := hc
    refine ⟨t, uid, ps, hw, ?_⟩
    cases p
    · exact ⟨hps, hm, .inr rfl, hs, hu⟩
    · exact ⟨hps, hm, hs, hu⟩
    · exact ⟨hps, hm, hs, hu⟩
    · exact ⟨hps, hm, hs, hu, hl⟩
  · cases h
  · cases h

theorem inv_step {a : Args} {s s' : Test} {e : TestEvent} (hr : ∃ fs, init.run fs = some s.rx) (hi : Inv a s)
    (h : s.step a e = some s') : Inv a s' := by
  have tx : ((∃ bs, e = .txBytes bs) ∨ e = .txReader ∨ e = .txError) → Inv a s' := by
    intro he
    obtain ⟨h1, h2, -, f, h3, h4⟩ := step_tx h he
    obtain ⟨t, uid, ps, hw, hc⟩ := hi
    refine ⟨t, uid, ps, writeInv_keep hw (by rcases h4 with ⟨_, rfl⟩ | rfl | rfl | rfl <;> simp) h3, ?_⟩
    have := Pu.readerEvent_same h4 h3
    rw [h1, h2, reader_outcomes h4 h3, this.main, this.connected]
    exact hc
  have side : ((∃ bs, e = .rxBytes bs) ∨ (∃ v, e = .rxReader v) ∨ e = .rxError) → Inv a s' := by
    intro he
    obtain ⟨h1, h2, -⟩ := step_side h he
    refine same_tx hr hi h1 h2 ?_
    rcases step_rx h with ⟨h4, -⟩ | ⟨f, h4, -⟩
    · exact .inl h4
    · exact .inr ⟨f, h4⟩
  have h0 := h
  unfold Test.step at h
  split at h
  · cases h
  cases e with
  | main r => exact inv_main hr hi h
  | late =>
    simp only at h
    split at h
    · next p n hp =>
      split at h <;> cases h
      obtain ⟨t, uid, ps, hw, hc⟩ := hi
      rw [hp] at hc
      exact ⟨t, uid, ps, hw, hc⟩
    · cases h
  | sameTime =>
    simp only at h
    split at h <;> cases h
    exact failed_inv hi rfl rfl
  | timeout =>
    simp only at h
    split at h
    · obtain ⟨m, h1, rfl⟩ := Option.map_eq_some_iff.1 h
      exact same_tx hr hi rfl rfl (.inr ⟨_, h1⟩)
    · obtain ⟨m, h1, rfl⟩ := Option.map_eq_some_iff.1 h
      obtain ⟨t, uid, ps, hw, hc⟩ := hi
      refine ⟨t, uid, ps, writeInv_keep hw (by simp) h1, ?_⟩
      exact cond_busy (fun hm => (idle_no hm).2 h1) hc
  | txBytes bs => exact tx (.inl ⟨bs, rfl⟩)
  | txReader => exact tx (.inr (.inl rfl))
  | txError => exact tx (.inr (.inr rfl))
  | rxBytes bs => exact side (.inl ⟨bs, rfl⟩)
  | rxReader v => exact side (.inr (.inl ⟨v, rfl⟩))
  | rxError => exact side (.inr (.inr rfl))

theorem inv_run {a : Args} {s : Test} {es : List TestEvent} (h : Test.start.run a es = some s) : Inv a s := by
  refine (run_induction (P := fun s => (∃ fs, init.run fs = some s.rx) ∧ Inv a s) h ?_ ?_).2
  · exact ⟨⟨[], rfl⟩, ⟨0, 0, 0, 0, fun _ => 0⟩, 0, [], ⟨rfl, rfl⟩, rfl, rfl, rfl⟩
  · rintro s e s' ⟨⟨fs, hfs⟩, hi⟩ - hst
    refine ⟨?_, inv_step ⟨fs, hfs⟩ hi hst⟩
    rcases step_rx hst with ⟨h4, -⟩ | ⟨f, h4, -⟩
    · exact ⟨fs, by rw [h4]; exact hfs⟩
    · refine ⟨fs ++ [f], Throughput.run_append.2 ⟨_, hfs, ?_⟩⟩
      unfold State.run; rw [h4]; rfl

/-! ### A run -/

/-- Inside a run, or after its failure. -/
def Inside (p : Phase) (vs : List Bool) (s : Test) : Prop :=
  vs.length < s.verdicts.length ∨ s.verdicts = vs ∧ (s.place.within p = true ∨ s.place = .failed)

/-- What one step does to the verdicts and to the place. -/
theorem place_step {a : Args} {s s' : Test} {e : TestEvent} (h : s.step a e = some s') :
    (s'.verdicts = s.verdicts ∧ (∀ p, s.place.within p = true → s'.place.within p = true ∨ s'.place = .failed)) ∨
    (s.verdicts.length < s'.verdicts.length) := by
  have keep : s'.place = s.place → s'.verdicts = s.verdicts →
      (s'.verdicts = s.verdicts ∧ (∀ p, s.place.within p = true → s'.place.within p = true ∨ s'.place = .failed)) ∨
      (s.verdicts.length < s'.verdicts.length) := fun h1 h2 => .inl ⟨h2, fun p hp => .inl (by rw [h1]; exact hp)⟩
  have fails : s'.place = .failed → s'.verdicts = s.verdicts →
      (s'.verdicts = s.verdicts ∧ (∀ p, s.place.within p = true → s'.place.within p = true ∨ s'.place = .failed)) ∨
      (s.verdicts.length < s'.verdicts.length) := fun h1 h2 => .inl ⟨h2, fun p hp => .inr h1⟩
  have call : ∀ n, s.callStep n = some s' → (∀ p, s.place.within p = true → n.within p = true) →
      (s'.verdicts = s.verdicts ∧ (∀ p, s.place.within p = true → s'.place.within p = true ∨ s'.place = .failed)) ∨
      (s.verdicts.length < s'.verdicts.length) := by
    intro n hn hw
    obtain ⟨-, h2, ⟨-, -, ⟨h5, -⟩ | h5⟩ | ⟨-, h4⟩⟩ := callStep_cases hn
    · exact .inl ⟨h2, fun p hp => .inl (by rw [h5]; exact hw p hp)⟩
    · exact fails h5 h2
    · exact keep h4 h2
  have exec : ∀ n t x, s.executeStep n t x = some s' → (∀ p, s.place.within p = true → n.within p = true) →
      (s'.verdicts = s.verdicts ∧ (∀ p, s.place.within p = true → s'.place.within p = true ∨ s'.place = .failed)) ∨
      (s.verdicts.length < s'.verdicts.length) := by
    intro n t x hx hw
    cases x with
    | error => cases hx; exact fails rfl rfl
    | ok c =>
      obtain ⟨-, h2, -, h4⟩ := executeStep_ok hx
      exact .inl ⟨h4, fun p hp => .inl (by rw [h2]; exact hw p hp)⟩
  unfold Test.step at h
  split at h
  · cases h
  cases e with
  | main r =>
    simp only [Test.mainStep] at h
    split at h
    · next hp =>
      obtain ⟨m, h1, rfl⟩ := Option.map_eq_some_iff.1 h
      exact .inl ⟨rfl, fun p hw => by rw [hp] at hw; cases hw⟩
    · next hp => exact call _ h (by rw [hp]; intro p hw; cases hw)
    · next hp => exact exec _ _ _ h (by rw [hp]; intro p hw; cases hw)
    · next hp => exact call _ h (by rw [hp]; intro p hw; cases hw)
    · next hp =>
      split at h
      · cases h; exact .inl ⟨rfl, fun p hw => by rw [hp] at hw; cases hw⟩
      split at h
      · cases h; exact fails rfl rfl
      obtain ⟨m, h1, rfl⟩ := Option.map_eq_some_iff.1 h
      exact keep rfl rfl
    · next p hp => exact exec _ _ _ h (by rw [hp]; intro p hw; cases hw)
    · next p hp => exact call _ h (by rw [hp]; intro p hw; cases hw)
    · next p hp =>
      obtain ⟨m, h1, rfl⟩ := Option.map_eq_some_iff.1 h
      exact .inl ⟨rfl, fun p hw => by rw [hp] at hw; cases hw⟩
    · next p hp =>
      split at h
      · cases h
      split at h <;> cases h
      · exact fails rfl rfl
      · exact .inl ⟨rfl, fun q hw => .inl (by rw [hp] at hw; exact hw)⟩
    · next p c hp => cases h; exact .inl ⟨rfl, fun q hw => .inl (by rw [hp] at hw; exact hw)⟩
    · next p c k hp => exact exec _ _ _ h (by rw [hp]; intro q hw; exact hw)
    · next p c k hp => exact call _ h (by rw [hp]; intro q hw; exact hw)
    · next p hp => cases h; exact .inl ⟨rfl, fun q hw => .inl (by rw [hp] at hw; exact hw)⟩
    · next p n hp =>
      split at h
      · split at h <;> cases h
        exact .inl ⟨rfl, fun q hw => .inl (by rw [hp] at hw; exact hw)⟩
      · cases h; exact .inl ⟨rfl, fun q hw => .inl (by rw [hp] at hw; exact hw)⟩
    · next p n hp =>
      split at h
      · cases h
      split at h <;> cases h
      · exact fails rfl rfl
      · exact .inr (by simp)
    · cases h
    · cases h
  | late =>
    simp only at h
    split at h
    · next p n hp =>
      split at h <;> cases h
      exact .inl ⟨rfl, fun q hw => .inl (by rw [hp] at hw; exact hw)⟩
    · cases h
  | sameTime =>
    simp only at h
    split at h <;> cases h
    exact fails rfl rfl
  | timeout =>
    simp only at h
    split at h <;>
    · obtain ⟨m, h1, rfl⟩ := Option.map_eq_some_iff.1 h
      exact keep rfl rfl
  | txBytes bs => obtain ⟨m, h1, rfl⟩ := Option.map_eq_some_iff.1 h; exact keep rfl rfl
  | txReader => obtain ⟨m, h1, rfl⟩ := Option.map_eq_some_iff.1 h; exact keep rfl rfl
  | txError => obtain ⟨m, h1, rfl⟩ := Option.map_eq_some_iff.1 h; exact keep rfl rfl
  | rxBytes bs =>
    simp only at h
    split at h
    · obtain ⟨m, h1, rfl⟩ := Option.map_eq_some_iff.1 h; exact keep rfl rfl
    · cases h
  | rxReader v =>
    simp only at h
    split at h
    · obtain ⟨m, h1, rfl⟩ := Option.map_eq_some_iff.1 h; exact keep rfl rfl
    · cases h
  | rxError =>
    simp only at h
    split at h
    · obtain ⟨m, h1, rfl⟩ := Option.map_eq_some_iff.1 h; exact keep rfl rfl
    · cases h

theorem step_failed {a : Args} {s : Test} {e : TestEvent} (h : s.place = .failed) : s.step a e = none := by
  simp [Test.step, h, Place.ended]

theorem inside_step {a : Args} {s s' : Test} {e : TestEvent} {p : Phase} {vs : List Bool} (h : s.step a e = some s')
    (hi : Inside p vs s) : Inside p vs s' := by
  rcases hi with hi | ⟨h1, h2 | h2⟩
  · rcases place_step h with ⟨h3, -⟩ | h3
    · exact .inl (by rw [h3]; exact hi)
    · exact .inl (by omega)
  · rcases place_step h with ⟨h3, h4⟩ | h3
    · exact .inr ⟨h3.trans h1, h4 p h2⟩
    · exact .inl (by rw [h1] at h3; exact h3)
  · rw [step_failed h2] at h; cases h

/-- From the reset to the verdict of a run, the list is not reset. -/
theorem inside_run {a : Args} {s s' : Test} {es : List TestEvent} {p : Phase} (h : s.run a es = some s')
    (hp : s.place.within p = true) (hv : s'.verdicts = s.verdicts) :
    (s'.place.within p = true ∨ s'.place = .failed) ∧
    ∃ fs, s.rx.run fs = some s'.rx ∧ chunks fs = received es ∧ (∀ f ∈ fs, f ≠ .restart) ∧
      ((∀ e ∈ es, e ≠ .rxError) → ∀ f ∈ fs, Steady f) := by
  have mono : ∀ (es : List TestEvent) (s s' : Test), s.run a es = some s' → Inside p s.verdicts s →
      Inside p s.verdicts s' := fun es s s' h hi =>
    run_induction (P := Inside p s.verdicts) h hi fun _ _ _ h1 _ h2 => inside_step h2 h1
  have fin : ∀ (es : List TestEvent) (s s' : Test), s.run a es = some s' → s.place.within p = true →
      s'.verdicts = s.verdicts → s'.place.within p = true ∨ s'.place = .failed := by
    intro es s s' h hp hv
    rcases mono es s s' h (.inr ⟨rfl, .inl hp⟩) with h1 | h1
    · rw [hv] at h1; omega
    · exact h1.2
  refine ⟨fin es s s' h hp hv, ?_⟩
  induction es generalizing s with
  | nil => cases h; exact ⟨[], rfl, rfl, by simp, by simp⟩
  | cons e es ih =>
    unfold Test.run at h
    cases hst : s.step a e with
    | none => rw [hst] at h; cases h
    | some s1 =>
      rw [hst] at h
      change s1.run a es = some s' at h
      have hle : ∀ (es : List TestEvent) (s s' : Test), s.run a es = some s' →
          s.verdicts.length ≤ s'.verdicts.length := fun es s s' h =>
        run_induction (P := fun x => s.verdicts.length ≤ x.verdicts.length) h (le_refl _) fun x e y h1 _ h2 => by
          rcases place_step h2 with ⟨h3, -⟩ | h3
          · rw [h3]; exact h1
          · exact le_of_lt (lt_of_le_of_lt h1 h3)
      have hl := hle es s1 s' h
      obtain ⟨h3, h4⟩ : s1.verdicts = s.verdicts ∧ (s1.place.within p = true ∨ s1.place = .failed) := by
        rcases place_step hst with ⟨h3, h4⟩ | h3
        · exact ⟨h3, h4 p hp⟩
        · rw [hv] at hl; omega
      have hrest : ∃ fs, s1.rx.run fs = some s'.rx ∧ chunks fs = received es ∧ (∀ f ∈ fs, f ≠ .restart) ∧
          ((∀ e ∈ es, e ≠ .rxError) → ∀ f ∈ fs, Steady f) := by
        rcases h4 with h4 | h4
        · exact ih h h4 (hv.trans h3.symm)
        · cases es with
          | nil => cases h; exact ⟨[], rfl, rfl, by simp, by simp⟩
          | cons e' es =>
            unfold Test.run at h
            rw [step_failed h4] at h
            cases h
      obtain ⟨fs, k1, k2, k3, k4⟩ := hrest
      rcases step_rx hst with ⟨h5, h6⟩ | ⟨f, h5, h6, h7, h8⟩
      · exact ⟨fs, h5 ▸ k1, by rw [received_cons, h6, k2]; rfl, k3, fun hx => k4 fun x hm => hx x (by simp [hm])⟩
      · have hnr : f ≠ .restart := fun hf => by
          obtain ⟨q, hq⟩ := h8 hf
          rw [hq] at hp; cases hp
        refine ⟨f :: fs, ?_, by rw [chunks_cons, h6, k2, ← received_cons], ?_, fun hx => ?_⟩
        · unfold State.run; rw [h5]; exact k1
        · intro g hg
          rcases List.mem_cons.1 hg with rfl | hg
          · exact hnr
          · exact k3 g hg
        · intro g hg
          rcases List.mem_cons.1 hg with rfl | hg
          · have hne : g ≠ .serialError := fun hf => hx e (by simp) (h7 hf)
            cases g <;> first | trivial | exact absurd rfl hnr | exact absurd rfl hne
          · exact k4 (fun x hm => hx x (by simp [hm])) g hg

/-! ### The numbers counted -/

/-- The number counted last. -/
def lastCount : Place → Option Nat
  | .poll _ total => some total
  | .check _ total => some total
  | _ => none

theorem commands_grow {s s' : State} {f : Event} {l : List Command} (h : s.step f = some s') (hs : s.stage = .running)
    (hf : f ≠ .restart) (hl : s.commands = some l) : ∃ l', s'.commands = some l' ∧ l <+: l' := by
  unfold State.step at h
  rw [if_neg (by rw [hs]; decide)] at h
  cases f with
  | main r => simp [State.mainStep, hs] at h
  | timeout => obtain ⟨m, h1, rfl⟩ := Option.map_eq_some_iff.1 h; exact ⟨l, hl, List.prefix_rfl⟩
  | restart => exact absurd rfl hf
  | rx bs => obtain ⟨m, h1, rfl⟩ := Option.map_eq_some_iff.1 h; exact ⟨l, hl, List.prefix_rfl⟩
  | serialError => obtain ⟨m, h1, rfl⟩ := Option.map_eq_some_iff.1 h; exact ⟨l, hl, List.prefix_rfl⟩
  | reader v =>
    simp only [State.readerStep] at h
    split at h
    · split at h
      · next m _ _ l1 hcb =>
        obtain ⟨m', h1, rfl⟩ := Option.map_eq_some_iff.1 h
        rw [hl] at hcb
        unfold receiverCallback at hcb
        split at hcb
        · split at hcb
          · cases hp : Print.command v _ with
            | error e => rw [hp] at hcb; cases hcb
            | ok x => rw [hp] at hcb; cases hcb; exact ⟨l, rfl, List.prefix_rfl⟩
          · cases hr : Examples.received [] _ with
            | error e => rw [hr] at hcb; cases hcb
            | ok x => rw [hr] at hcb; cases hcb; exact ⟨_, rfl, List.prefix_append _ _⟩
        · cases hcb
        · cases hcb
      · obtain ⟨m', h1, rfl⟩ := Option.map_eq_some_iff.1 h; exact ⟨l, hl, List.prefix_rfl⟩
    · obtain ⟨m', h1, rfl⟩ := Option.map_eq_some_iff.1 h; exact ⟨l, hl, List.prefix_rfl⟩

/-- The list is at least as long as the number counted last. -/
def Bound (s : Test) : Prop :=
  ∀ n, lastCount s.place = some n → s.rx.stage = .running ∧ ∃ l, s.rx.commands = some l ∧ n ≤ l.length

theorem bound_keep {a : Args} {s s' : Test} {e : TestEvent} (h : s.step a e = some s') (hb : Bound s)
    (hr : ∃ fs, init.run fs = some s.rx) (hp : lastCount s'.place = lastCount s.place) : Bound s' := by
  intro n hn
  rw [hp] at hn
  obtain ⟨h1, l, h2, h3⟩ := hb n hn
  rcases step_rx h with ⟨h4, -⟩ | ⟨f, h4, -, -, h5⟩
  · rw [h4]; exact ⟨h1, l, h2, h3⟩
  · have hne : f ≠ .restart := fun hf => by
      obtain ⟨q, hq⟩ := h5 hf
      rw [hq] at hn; cases hn
    obtain ⟨fs, hfs⟩ := hr
    obtain ⟨l', h6, h7⟩ := commands_grow h4 h1 hne h2
    exact ⟨(running_step h4 h1 (rx_idle hfs h1).1).1, l', h6, h3.trans h7.length_le⟩

theorem bound_none {s' : Test} (h : lastCount s'.place = none) : Bound s' := by
  intro n hn; rw [h] at hn; cases hn

theorem bound_step {a : Args} {s s' : Test} {e : TestEvent} (hr : ∃ fs, init.run fs = some s.rx) (hi : Inv a s)
    (hb : Bound s) (h : s.step a e = some s') : Bound s' := by
  have h0 := h
  have call : ∀ n, s.callStep n = some s' → lastCount s.place = none → lastCount n = none → Bound s' := by
    intro n hn h1 h2
    obtain ⟨-, -, ⟨-, -, ⟨h5, -⟩ | h5⟩ | ⟨-, h4⟩⟩ := callStep_cases hn
    · exact bound_none (by rw [h5]; exact h2)
    · exact bound_none (by rw [h5]; rfl)
    · exact bound_none (by rw [h4]; exact h1)
  have exec : ∀ n t x, s.executeStep n t x = some s' → lastCount n = none → Bound s' := by
    intro n t x hx h2
    cases x with
    | error => cases hx; exact bound_none rfl
    | ok c => exact bound_none (by rw [(executeStep_ok hx).2.1]; exact h2)
  unfold Test.step at h
  split at h
  · cases h
  cases e with
  | main r =>
    simp only [Test.mainStep] at h
    split at h
    · next hp => obtain ⟨m, h1, rfl⟩ := Option.map_eq_some_iff.1 h; exact bound_none rfl
    · next hp => exact call _ h (by rw [hp]; rfl) rfl
    · next hp => exact exec _ _ _ h rfl
    · next hp => exact call _ h (by rw [hp]; rfl) rfl
    · next hp =>
      split at h
      · cases h; exact bound_none rfl
      split at h
      · cases h; exact bound_none rfl
      obtain ⟨m, h1, rfl⟩ := Option.map_eq_some_iff.1 h
      exact bound_none (by show lastCount s.place = none; rw [hp]; rfl)
    · next p hp => exact exec _ _ _ h rfl
    · next p hp => exact call _ h (by rw [hp]; rfl) rfl
    · next p hp => obtain ⟨m, h1, rfl⟩ := Option.map_eq_some_iff.1 h; exact bound_none rfl
    · next p hp =>
      split at h
      · cases h
      split at h <;> cases h <;> exact bound_none rfl
    · next p c hp => cases h; exact bound_none rfl
    · next p c k hp => exact exec _ _ _ h rfl
    · next p c k hp => exact call _ h (by rw [hp]; rfl) rfl
    · next p hp =>
      cases h
      obtain ⟨t, uid, ps, hw, hc⟩ := hi
      rw [hp] at hc
      intro n hn
      cases hn
      obtain ⟨fs, hfs⟩ := hr
      have hd := doing_run hfs
      unfold Doing at hd
      rw [hc.2.2.1] at hd
      obtain ⟨l, hl⟩ := Option.isSome_iff_exists.1 hd.2.2.1
      exact ⟨hc.2.2.1, l, hl, Nat.zero_le _⟩
    · next p n hp =>
      split at h
      · split at h
        · cases h
        next l hl =>
        cases h
        obtain ⟨h1, -⟩ := hb n (by rw [hp]; rfl)
        intro n' hn
        cases hn
        exact ⟨h1, l, hl, le_refl _⟩
      · cases h
        exact bound_keep h0 hb hr (by rw [hp]; rfl)
    · next p n hp =>
      split at h
      · cases h
      split at h <;> cases h
      · exact bound_none rfl
      · cases p <;> exact bound_none rfl
    · cases h
    · cases h
  | late =>
    simp only at h
    split at h
    · next p n hp =>
      split at h <;> cases h
      exact bound_keep h0 hb hr (by rw [hp]; rfl)
    · cases h
  | sameTime =>
    simp only at h
    split at h <;> cases h
    exact bound_none rfl
  | timeout =>
    simp only at h
    split at h <;>
    · obtain ⟨m, h1, rfl⟩ := Option.map_eq_some_iff.1 h
      exact bound_keep h0 hb hr rfl
  | txBytes bs => exact bound_keep h0 hb hr (by rw [(step_tx h0 (.inl ⟨bs, rfl⟩)).1])
  | txReader => exact bound_keep h0 hb hr (by rw [(step_tx h0 (.inr (.inl rfl))).1])
  | txError => exact bound_keep h0 hb hr (by rw [(step_tx h0 (.inr (.inr rfl))).1])
  | rxBytes bs => exact bound_keep h0 hb hr (by rw [(step_side h0 (.inl ⟨bs, rfl⟩)).1])
  | rxReader v => exact bound_keep h0 hb hr (by rw [(step_side h0 (.inr (.inl ⟨v, rfl⟩))).1])
  | rxError => exact bound_keep h0 hb hr (by rw [(step_side h0 (.inr (.inr rfl))).1])

theorem rx_step {a : Args} {s s' : Test} {e : TestEvent} (hst : s.step a e = some s')
    (h : ∃ fs, init.run fs = some s.rx) : ∃ fs, init.run fs = some s'.rx := by
  obtain ⟨fs, hfs⟩ := h
  rcases step_rx hst with ⟨h4, -⟩ | ⟨f, h4, -⟩
  · exact ⟨fs, by rw [h4]; exact hfs⟩
  · refine ⟨fs ++ [f], Throughput.run_append.2 ⟨_, hfs, ?_⟩⟩
    unfold State.run; rw [h4]; rfl

theorem bound_run {a : Args} {s : Test} {es : List TestEvent} (h : Test.start.run a es = some s) : Bound s := by
  refine (run_induction (P := fun s => (∃ fs, init.run fs = some s.rx) ∧ Inv a s ∧ Bound s) h ?_ ?_).2.2
  · exact ⟨⟨[], rfl⟩, ⟨⟨0, 0, 0, 0, fun _ => 0⟩, 0, [], ⟨rfl, rfl⟩, rfl, rfl, rfl⟩, bound_none rfl⟩
  · rintro s e s' ⟨hr, hi, hb⟩ - hst
    exact ⟨rx_step hst hr, inv_step hr hi hst, bound_step hr hi hb hst⟩

/-- How the main thread gets to the verdict. -/
theorem check_step {a : Args} {s s' : Test} {e : TestEvent} (h : s.step a e = some s') (he : e ≠ .late) {p : Phase} {n : Nat}
    (hp : s'.place = .check p n) : s.place = .check p n ∨ a.count ≤ n := by
  have keep : s'.place = s.place → s.place = .check p n ∨ a.count ≤ n := fun h => .inl (by rw [← h]; exact hp)
  have no : ∀ {q}, s'.place = q → (∀ p n, q ≠ .check p n) → s.place = .check p n ∨ a.count ≤ n := fun h1 h2 => by
    rw [h1] at hp; exact absurd hp (h2 p n)
  have call : ∀ m, s.callStep m = some s' → (∀ p n, m ≠ .check p n) → s.place = .check p n ∨ a.count ≤ n := by
    intro m hm h1
    obtain ⟨-, -, ⟨-, -, ⟨h5, -⟩ | h5⟩ | ⟨-, h4⟩⟩ := callStep_cases hm
    · exact no h5 h1
    · exact no h5 (by simp)
    · exact keep h4
  have exec : ∀ m t x, s.executeStep m t x = some s' → (∀ p n, m ≠ .check p n) → s.place = .check p n ∨ a.count ≤ n := by
    intro m t x hx h2
    cases x with
    | error => cases hx; cases hp
    | ok c => exact no (executeStep_ok hx).2.1 h2
  unfold Test.step at h
  split at h
  · cases h
  cases e with
  | main r =>
    simp only [Test.mainStep] at h
    split at h
    · obtain ⟨m, h1, rfl⟩ := Option.map_eq_some_iff.1 h; cases hp
    · exact call _ h (by simp)
    · exact exec _ _ _ h (by simp)
    · exact call _ h (by simp)
    · split at h
      · cases h; cases hp
      split at h
      · cases h; cases hp
      obtain ⟨m, h1, rfl⟩ := Option.map_eq_some_iff.1 h
      exact keep rfl
    · exact exec _ _ _ h (by simp)
    · exact call _ h (by simp)
    · obtain ⟨m, h1, rfl⟩ := Option.map_eq_some_iff.1 h; cases hp
    · split at h
      · cases h
      split at h <;> cases h <;> cases hp
    · cases h; cases hp
    · exact exec _ _ _ h (by simp)
    · exact call _ h (by simp)
    · cases h; cases hp
    · split at h
      · split at h <;> cases h
        cases hp
      · next hn => cases h; cases hp; exact .inr (by omega)
    · next q _ _ =>
      split at h
      · cases h
      split at h <;> cases h
      · cases hp
      · cases q <;> cases hp
    · cases h
    · cases h
  | late => exact absurd rfl he
  | sameTime =>
    simp only at h
    split at h <;> cases h
    cases hp
  | timeout =>
    simp only at h
    split at h <;>
    · obtain ⟨m, h1, rfl⟩ := Option.map_eq_some_iff.1 h
      exact keep rfl
  | txBytes bs => obtain ⟨m, h1, rfl⟩ := Option.map_eq_some_iff.1 h; exact keep rfl
  | txReader => obtain ⟨m, h1, rfl⟩ := Option.map_eq_some_iff.1 h; exact keep rfl
  | txError => obtain ⟨m, h1, rfl⟩ := Option.map_eq_some_iff.1 h; exact keep rfl
  | rxBytes bs =>
    simp only at h
    split at h
    · obtain ⟨m, h1, rfl⟩ := Option.map_eq_some_iff.1 h; exact keep rfl
    · cases h
  | rxReader v =>
    simp only at h
    split at h
    · obtain ⟨m, h1, rfl⟩ := Option.map_eq_some_iff.1 h; exact keep rfl
    · cases h
  | rxError =>
    simp only at h
    split at h
    · obtain ⟨m, h1, rfl⟩ := Option.map_eq_some_iff.1 h; exact keep rfl
    · cases h

theorem check_run {a : Args} {s s' : Test} {es : List TestEvent} (h : s.run a es = some s') (he : ∀ e ∈ es, e ≠ .late)
    (hs : ∀ p n, s.place ≠ .check p n) : ∀ p n, s'.place = .check p n → a.count ≤ n := by
  refine run_induction (P := fun s' => ∀ p n, s'.place = .check p n → a.count ≤ n) h (fun p n hp => absurd hp (hs p n)) ?_
  intro x e y hx hm hst p n hp
  rcases check_step hst (he e hm) hp with h1 | h1
  · exact hx p n h1
  · exact h1

/-- Steps of the reading thread of the receiver. -/
theorem lift_reader {a : Args} {s : Test} {r : State} {k : Nat} {env : Print.Env} (hl : s.place.late = true)
    (he : s.place.ended = false) (h : s.rx.run (List.replicate k (.reader env)) = some r) :
    s.run a (List.replicate k (.rxReader env)) = some { s with rx := r } := by
  induction k generalizing s with
  | zero => cases h; rfl
  | succ k ih =>
    rw [List.replicate_succ] at h ⊢
    unfold State.run at h
    cases hst : s.rx.step (.reader env) with
    | none => rw [hst] at h; cases h
    | some r1 =>
      rw [hst] at h
      change r1.run _ = some r at h
      unfold Test.run
      have : s.step a (.rxReader env) = some { s with rx := r1 } := by
        simp [Test.step, he, hl, hst]
      rw [this]
      exact ih (s := { s with rx := r1 }) hl he h

/-! ### The number of verdicts -/

/-- The number of verdicts before a run. -/
def index : Phase → Nat
  | .broadcastQos => 0
  | .broadcast => 1
  | .unicastQos => 2
  | .unicast => 3

/-- The number of verdicts at this place; none after an exception. -/
def passed : Place → Option Nat
  | .connect | .connecting | .profile | .profileRunning | .receiver => some 0
  | .activate p | .activating p | .reset p | .make p | .send p _ _ | .sending p _ _ | .rate p | .poll p _ | .check p _ =>
    some (index p)
  | .done => some 4
  | .failed => none

theorem passed_step {a : Args} {s s' : Test} {e : TestEvent} (h : s.step a e = some s')
    (hi : ∀ n, passed s.place = some n → s.verdicts.length = n) :
    (∀ n, passed s'.place = some n → s'.verdicts.length = n) ∧
      (s'.place = .failed → s'.verdicts = s.verdicts) := by
  have keep : s'.verdicts = s.verdicts → (passed s'.place = passed s.place ∨ s'.place = .failed) →
      (∀ n, passed s'.place = some n → s'.verdicts.length = n) ∧ (s'.place = .failed → s'.verdicts = s.verdicts) := by
    intro h1 h2
    refine ⟨fun n hn => ?_, fun _ => h1⟩
    rcases h2 with h2 | h2
    · rw [h1]; exact hi n (by rw [← h2]; exact hn)
    · rw [h2] at hn; cases hn
  have call : ∀ m, s.callStep m = some s' → passed m = passed s.place →
      (∀ n, passed s'.place = some n → s'.verdicts.length = n) ∧ (s'.place = .failed → s'.verdicts = s.verdicts) := by
    intro m hm h1
    obtain ⟨-, h2, ⟨-, -, ⟨h5, -⟩ | h5⟩ | ⟨-, h4⟩⟩ := callStep_cases hm
    · exact keep h2 (.inl (by rw [h5]; exact h1))
    · exact keep h2 (.inr h5)
    · exact keep h2 (.inl (by rw [h4]))
  have exec : ∀ m t x, s.executeStep m t x = some s' → passed m = passed s.place →
      (∀ n, passed s'.place = some n → s'.verdicts.length = n) ∧ (s'.place = .failed → s'.verdicts = s.verdicts) := by
    intro m t x hx h2
    cases x with
    | error => cases hx; exact keep rfl (.inr rfl)
    | ok c =>
      obtain ⟨-, h3, -, h4⟩ := executeStep_ok hx
      exact keep h4 (.inl (by rw [h3]; exact h2))
  unfold Test.step at h
  split at h
  · cases h
  cases e with
  | main r =>
    simp only [Test.mainStep] at h
    split at h
    · next hp => obtain ⟨m, h1, rfl⟩ := Option.map_eq_some_iff.1 h; exact keep rfl (.inl (by rw [hp]; rfl))
    · next hp => exact call _ h (by rw [hp]; rfl)
    · next hp => exact exec _ _ _ h (by rw [hp]; rfl)
    · next hp => exact call _ h (by rw [hp]; rfl)
    · next hp =>
      split at h
      · cases h; exact keep rfl (.inl (by rw [hp]; rfl))
      split at h
      · cases h; exact keep rfl (.inr rfl)
      obtain ⟨m, h1, rfl⟩ := Option.map_eq_some_iff.1 h
      exact keep rfl (.inl rfl)
    · next p hp => exact exec _ _ _ h (by rw [hp]; rfl)
    · next p hp => exact call _ h (by rw [hp]; rfl)
    · next p hp => obtain ⟨m, h1, rfl⟩ := Option.map_eq_some_iff.1 h; exact keep rfl (.inl (by rw [hp]; rfl))
    · next p hp =>
      split at h
      · cases h
      split at h <;> cases h
      · exact keep rfl (.inr rfl)
      · exact keep rfl (.inl (by rw [hp]; rfl))
    · next p c hp => cases h; exact keep rfl (.inl (by rw [hp]; rfl))
    · next p c k hp => exact exec _ _ _ h (by rw [hp]; rfl)
    · next p c k hp => exact call _ h (by rw [hp]; rfl)
    · next p hp => cases h; exact keep rfl (.inl (by rw [hp]; rfl))
    · next p n hp =>
      split at h
      · split at h <;> cases h
        exact keep rfl (.inl (by rw [hp]; rfl))
      · cases h; exact keep rfl (.inl (by rw [hp]; rfl))
    · next p n hp =>
      split at h
      · cases h
      split at h <;> cases h
      · exact keep rfl (.inr rfl)
      · have := hi (index p) (by rw [hp]; rfl)
        cases p <;> exact ⟨fun n hn => by cases hn; simp [this, index], fun h => by cases h⟩
    · cases h
    · cases h
  | late =>
    simp only at h
    split at h
    · next p n hp =>
      split at h <;> cases h
      exact keep rfl (.inl (by rw [hp]; rfl))
    · cases h
  | sameTime =>
    simp only at h
    split at h <;> cases h
    exact keep rfl (.inr rfl)
  | timeout =>
    simp only at h
    split at h <;>
    · obtain ⟨m, h1, rfl⟩ := Option.map_eq_some_iff.1 h
      exact keep rfl (.inl rfl)
  | txBytes bs => obtain ⟨m, h1, rfl⟩ := Option.map_eq_some_iff.1 h; exact keep rfl (.inl rfl)
  | txReader => obtain ⟨m, h1, rfl⟩ := Option.map_eq_some_iff.1 h; exact keep rfl (.inl rfl)
  | txError => obtain ⟨m, h1, rfl⟩ := Option.map_eq_some_iff.1 h; exact keep rfl (.inl rfl)
  | rxBytes bs =>
    simp only at h
    split at h
    · obtain ⟨m, h1, rfl⟩ := Option.map_eq_some_iff.1 h; exact keep rfl (.inl rfl)
    · cases h
  | rxReader v =>
    simp only at h
    split at h
    · obtain ⟨m, h1, rfl⟩ := Option.map_eq_some_iff.1 h; exact keep rfl (.inl rfl)
    · cases h
  | rxError =>
    simp only at h
    split at h
    · obtain ⟨m, h1, rfl⟩ := Option.map_eq_some_iff.1 h; exact keep rfl (.inl rfl)
    · cases h

theorem passed_run {a : Args} {s : Test} {es : List TestEvent} (h : Test.start.run a es = some s) :
    (∀ n, passed s.place = some n → s.verdicts.length = n) ∧ s.verdicts.length ≤ 4 := by
  refine run_induction (P := fun s => (∀ n, passed s.place = some n → s.verdicts.length = n) ∧ s.verdicts.length ≤ 4) h
    ⟨fun n hn => by cases hn; rfl, by decide⟩ ?_
  rintro x e y ⟨hx, hx4⟩ - hst
  obtain ⟨h1, h2⟩ := passed_step hst hx
  refine ⟨h1, ?_⟩
  cases hp : passed y.place with
  | none =>
    have : y.place = .failed := by
      cases hq : y.place <;> rw [hq] at hp <;> first | rfl | cases hp
    rw [h2 this]; exact hx4
  | some n =>
    rw [h1 n hp]
    have hx : ∀ p, index p ≤ 4 := fun p => by cases p <;> decide
    cases hq : y.place <;> rw [hq] at hp <;> cases hp <;> first | omega | exact hx _

/-! ### A message that has gone over the air -/

/-- The message as the application sees it. -/
def carried (st : Status) (n : Nat) : Command where
  actions := [.regular false false (.returnFileData ⟨⟨0x40, ⟨0⟩⟩, ⟨n⟩, payload n⟩)]
  interfaceStatus := some (.status 1 (.interfaceStatus ⟨0xD7, some st⟩))
  generateTagRequestAction := false
  tagId := none
  sendTagResponseWhenCompleted := true
  executionCompleted := false
  completedWithError := none

theorem airborne_eq {n : Nat} (h : n ≤ 256) : airborne n = returned (0x40, 0, (List.range n).map UInt8.ofNat) := by
  have : lengthField n = encode n := by
    unfold lengthField encode
    by_cases h1 : n < 64
    · rw [if_pos h1, if_pos (by omega)]
    · rw [if_neg h1, if_neg (by omega), if_pos (by omega)]
      simp only [List.cons.injEq, and_true]
      refine ⟨by simp, UInt8.toNat_inj.1 (by simp)⟩
  simp [airborne, returned, this, encode]

theorem payload_map {n : Nat} (h : n ≤ 256) :
    ((List.range n).map UInt8.ofNat).map (fun b => (b.toNat : Int)) = payload n := by
  unfold payload
  rw [List.map_map, Int.toNat_natCast]
  refine List.map_congr_left fun k hk => ?_
  have := List.mem_range.1 hk
  simp
  omega

theorem carried_command (st : Status) (n : Nat) :
    Command.new [some (.status 1 (.interfaceStatus ⟨0xD7, some st⟩)),
      some (.regular false false (.returnFileData ⟨⟨0x40, ⟨0⟩⟩, ⟨n⟩, payload n⟩))] false none true 0 =
      .ok (carried st n) := rfl

theorem arrival_parses {raw : List UInt8} {st : Status} {n : Nat} (hr : Reports raw st)
    (hrx : st.rxLevel ≤ 127) (hn : st.addressee.idType ≠ .NBID) (h : n ≤ 256) :
    AlpParser.parse (arrival raw n).length (stream (arrival raw n)) =
      .ok (carried st n) ⟨8 * (arrival raw n).length, []⟩ := by
  let segs : List (List UInt8 × Option Action) :=
    [([0x62, 0xD7, UInt8.ofNat raw.length] ++ raw, some (.status 1 (.interfaceStatus ⟨0xD7, some st⟩))),
     (airborne n, some (.regular false false (.returnFileData ⟨⟨0x40, ⟨0⟩⟩, ⟨n⟩, payload n⟩)))]
  have hs : (segs.map Prod.fst).flatten = arrival raw n := by simp [segs, arrival]
  have key := AlpParser.parse_runs (n := (arrival raw n).length) (segs := segs) (rest := [])
    (c := carried st n) (by
      intro y hy
      simp only [segs, List.mem_cons, List.not_mem_nil, or_false] at hy
      rcases hy with rfl | rfl
      · exact ⟨status_reads hr hrx hn, by simp⟩
      · refine ⟨?_, by simp [airborne]⟩
        have := returned_reads (0x40, 0, (List.range n).map UInt8.ofNat) (by simp) (by simp; omega)
        rw [payload_map h] at this
        rw [airborne_eq h]
        simpa using this)
    (by rw [hs])
    (by
      intro init last e
      have hlast : last.1 ≠ [] := by
        have : last ∈ segs := by rw [e]; simp
        simp only [segs, List.mem_cons, List.not_mem_nil, or_false] at this
        rcases this with rfl | rfl <;> simp [airborne]
      rw [← hs, e]
      have := List.length_pos_iff.2 hlast
      simp
      omega)
    (carried_command st n)
  rw [hs] at key
  simpa using key

end Tr
end Verif.Throughput
