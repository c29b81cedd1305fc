import Verif.Lemmas.ModemCalls
import Verif.Lemmas.SystemFiles

/-! What `connect` reads from the response. -/

namespace Verif.Modem

open Verif Verif.Serial

theorem bytearray_ints (l : List Int) :
    (∃ bs, bytearray (.concat (l.map Gen.int)) = .ok bs ∧ l = ords bs) ∨
    (∃ e, bytearray (.concat (l.map Gen.int)) = .error e) ∧ ∀ bs, l ≠ ords bs := by
  by_cases h : isBytes l
  · exact .inl ⟨_, Emits.ints h, (ords_toU8s h).symm⟩
  · refine .inr ⟨?_, ?_⟩
    · cases hb : bytearray (.concat (l.map Gen.int)) with
      | error e => exact ⟨e, rfl⟩
      | ok bs =>
        exfalso
        refine h ?_
        have := (SerIff.concat Gen.int isByte l fun x _ => SerIff.int x).1.1 ⟨bs, hb⟩
        exact this
    · rintro bs rfl
      refine h ?_
      intro v hv
      obtain ⟨b, -, rfl⟩ := List.mem_map.1 hv
      have := b.toNat_lt
      constructor <;> omega

theorem ords_inj {a b : List UInt8} (h : ords a = ords b) : a = b := by
  induction a generalizing b with
  | nil =>
    cases b with
    | nil => rfl
    | cons y b => cases h
  | cons x a ih =>
    cases b with
    | nil => cases h
    | cons y b =>
      simp only [ords, List.map_cons, List.cons.injEq, Int.natCast_inj] at h
      rw [UInt8.toNat_inj.1 h.1, ih h.2]

/-- What the loop does with one action. -/
theorem readInfo_cons (a : Action) (as : List Action) (u : Option Nat)
    (f : Option FirmwareVersionFile) :
    (∃ n, ReturnsUid a n ∧ (∀ x, ¬ ReturnsFirmware a x) ∧
      readInfo (a :: as) u f = readInfo as (some n) f) ∨
    (∃ x, ReturnsFirmware a x ∧ (∀ n, ¬ ReturnsUid a n) ∧
      readInfo (a :: as) u f = readInfo as u (some x)) ∨
    (ReturnsJunk a ∧ ∃ e, readInfo (a :: as) u f = (u, f, some e)) ∨
    ((∀ n, ¬ ReturnsUid a n) ∧ (∀ x, ¬ ReturnsFirmware a x) ∧ ¬ ReturnsJunk a ∧
      readInfo (a :: as) u f = readInfo as u f) := by
  by_cases h : ∃ g r d, a = .regular g r (.returnFileData d)
  · obtain ⟨g, r, d, rfl⟩ := h
    have hu : ∀ n, ReturnsUid (.regular g r (.returnFileData d)) n ↔
        d.offset.id = 0 ∧ ∃ bs : List UInt8, d.data = ords bs ∧ bs.length = 8 ∧ n = number bs := by
      intro n
      constructor
      · rintro ⟨g, r, d, bs, h, h1, h2, h3, h4⟩
        cases h
        exact ⟨h1, bs, h2, h3, h4⟩
      · rintro ⟨h1, bs, h2, h3, h4⟩
        exact ⟨_, _, _, bs, rfl, h1, h2, h3, h4⟩
    have hf : ∀ x, ReturnsFirmware (.regular g r (.returnFileData d)) x ↔
        d.offset.id = 2 ∧ ∃ (bs : List UInt8) (s : St), d.data = ords bs ∧
          FirmwareVersionFile.parse (stream bs) = .ok x s := by
      intro n
      constructor
      · rintro ⟨g, r, d, bs, s, h, h1, h2, h3⟩
        cases h
        exact ⟨h1, bs, s, h2, h3⟩
      · rintro ⟨h1, bs, s, h2, h3⟩
        exact ⟨_, _, _, bs, s, rfl, h1, h2, h3⟩
    have hj : ReturnsJunk (.regular g r (.returnFileData d)) ↔
        (d.offset.id = 0 ∨ d.offset.id = 2) ∧
        (∀ n, ¬ ReturnsUid (.regular g r (.returnFileData d)) n) ∧
        ∀ x, ¬ ReturnsFirmware (.regular g r (.returnFileData d)) x := by
      constructor
      · rintro ⟨g, r, d, h, h1, h2, h3⟩
        cases h
        exact ⟨h1, h2, h3⟩
      · rintro ⟨h1, h2, h3⟩
        exact ⟨_, _, _, rfl, h1, h2, h3⟩
    rw [hj]
    simp only [hu, hf]
    obtain ⟨k, hk⟩ : ∃ k, k = readInfo as := ⟨_, rfl⟩
    rw [← hk]
    unfold readInfo
    simp only [← hk]
    rcases bytearray_ints d.data with ⟨bs, hb, hd⟩ | ⟨⟨e, hb⟩, hd⟩
    · simp only [hb]
      by_cases h0 : d.offset.id = 0
      · simp only [if_pos h0]
        unfold unpackQ
        by_cases h8 : bs.length = 8
        · rw [if_pos h8]
          exact .inl ⟨number bs, ⟨h0, bs, hd, h8, rfl⟩, fun x h => by omega, rfl⟩
        · rw [if_neg h8]
          refine .inr (.inr (.inl ⟨⟨.inl h0, ?_, fun x h => by omega⟩, _, rfl⟩))
          rintro n ⟨-, bs', h1, h2, -⟩
          rw [hd] at h1
          rw [ords_inj h1] at h8
          exact h8 h2
      · simp only [if_neg h0]
        by_cases h2 : d.offset.id = 2
        · simp only [if_pos h2]
          cases hp : FirmwareVersionFile.parse (stream bs) with
          | ok x s =>
            exact .inr (.inl ⟨x, ⟨h2, bs, s, hd, hp⟩, fun n h => by omega, rfl⟩)
          | err e s =>
            refine .inr (.inr (.inl ⟨⟨.inr h2, fun n h => by omega, ?_⟩, _, rfl⟩))
            rintro x ⟨-, bs', s', h1, h3⟩
            rw [hd] at h1
            rw [← ords_inj h1, hp] at h3
            cases h3
        · simp only [if_neg h2]
          exact .inr (.inr (.inr ⟨fun n h => h0 h.1, fun x h => h2 h.1, fun h => by omega, trivial⟩))
    · simp only [hb]
      by_cases h02 : d.offset.id = 0 ∨ d.offset.id = 2
      · rw [if_pos h02]
        refine .inr (.inr (.inl ⟨⟨h02, ?_, ?_⟩, _, rfl⟩))
        · rintro n ⟨-, bs, h, -⟩; exact hd bs h
        · rintro n ⟨-, bs, s, h, -⟩; exact hd bs h
      · rw [if_neg h02]
        exact .inr (.inr (.inr ⟨fun n h => h02 (.inl h.1), fun x h => h02 (.inr h.1),
          fun h => h02 h.1, rfl⟩))
  · refine .inr (.inr (.inr ⟨?_, ?_, ?_, ?_⟩))
    · rintro n ⟨g, r, d, -, rfl, -⟩; exact h ⟨g, r, d, rfl⟩
    · rintro n ⟨g, r, d, -, -, rfl, -⟩; exact h ⟨g, r, d, rfl⟩
    · rintro ⟨g, r, d, rfl, -⟩; exact h ⟨g, r, d, rfl⟩
    · obtain ⟨k, hk⟩ : ∃ k, k = readInfo as := ⟨_, rfl⟩
      rw [← hk]
      unfold readInfo
      split
      · cases ‹_ :: _ = []›
      · next heq => cases heq; exact absurd ⟨_, _, _, rfl⟩ h
      · next heq => cases heq; rw [hk]

/-- The loop over the actions. -/
theorem readInfo_spec {as : List Action} {u u' : Option Nat} {f f' : Option FirmwareVersionFile}
    {e : Option PyErr} (h : readInfo as u f = (u', f', e)) :
    (e = none ↔ ∀ a ∈ as, ¬ ReturnsJunk a) ∧
    ((∃ n, u' = some n ∧ ∃ a ∈ as, ReturnsUid a n) ∨
      u' = u ∧ (e = none → ∀ a ∈ as, ∀ n, ¬ ReturnsUid a n)) ∧
    ((∃ x, f' = some x ∧ ∃ a ∈ as, ReturnsFirmware a x) ∨
      f' = f ∧ (e = none → ∀ a ∈ as, ∀ x, ¬ ReturnsFirmware a x)) := by
  induction as generalizing u f with
  | nil =>
    cases h
    simp
  | cons a as ih =>
    rcases readInfo_cons a as u f with ⟨n, h1, h2, h3⟩ | ⟨x, h1, h2, h3⟩ | ⟨h1, e', h3⟩ |
      ⟨h1, h2, h4, h3⟩
    · rw [h3] at h
      obtain ⟨i1, i2, i3⟩ := ih h
      refine ⟨?_, ?_, ?_⟩
      · rw [i1]
        simp only [List.forall_mem_cons]
        refine (and_iff_right ?_).symm
        rintro ⟨_, _, _, _, _, hx, _⟩
        exact hx n h1
      · rcases i2 with ⟨n', h5, a', h6, h7⟩ | ⟨h5, h6⟩
        · exact .inl ⟨n', h5, a', by simp [h6], h7⟩
        · exact .inl ⟨n, h5, a, by simp, h1⟩
      · rcases i3 with ⟨n', h5, a', h6, h7⟩ | ⟨h5, h6⟩
        · exact .inl ⟨n', h5, a', by simp [h6], h7⟩
        · refine .inr ⟨h5, fun he a' ha => ?_⟩
          rcases List.mem_cons.1 ha with rfl | ha
          · exact h2
          · exact h6 he a' ha
    · rw [h3] at h
      obtain ⟨i1, i2, i3⟩ := ih h
      refine ⟨?_, ?_, ?_⟩
      · rw [i1]
        simp only [List.forall_mem_cons]
        refine (and_iff_right ?_).symm
        rintro ⟨_, _, _, _, _, _, hx⟩
        exact hx x h1
      · rcases i2 with ⟨n', h5, a', h6, h7⟩ | ⟨h5, h6⟩
        · exact .inl ⟨n', h5, a', by simp [h6], h7⟩
        · refine .inr ⟨h5, fun he a' ha => ?_⟩
          rcases List.mem_cons.1 ha with rfl | ha
          · exact h2
          · exact h6 he a' ha
      · rcases i3 with ⟨n', h5, a', h6, h7⟩ | ⟨h5, h6⟩
        · exact .inl ⟨n', h5, a', by simp [h6], h7⟩
        · exact .inl ⟨x, h5, a, by simp, h1⟩
    · rw [h3] at h
      cases h
      refine ⟨⟨(by intro h; cases h), fun h => absurd h1 (h a (by simp))⟩, .inr ⟨rfl, by intro h; cases h⟩,
        .inr ⟨rfl, by intro h; cases h⟩⟩
    · rw [h3] at h
      obtain ⟨i1, i2, i3⟩ := ih h
      refine ⟨?_, ?_, ?_⟩
      · rw [i1]
        simp only [List.forall_mem_cons]
        exact (and_iff_right h4).symm
      · rcases i2 with ⟨n', h5, a', h6, h7⟩ | ⟨h5, h6⟩
        · exact .inl ⟨n', h5, a', by simp [h6], h7⟩
        · refine .inr ⟨h5, fun he a' ha => ?_⟩
          rcases List.mem_cons.1 ha with rfl | ha
          · exact h1
          · exact h6 he a' ha
      · rcases i3 with ⟨n', h5, a', h6, h7⟩ | ⟨h5, h6⟩
        · exact .inl ⟨n', h5, a', by simp [h6], h7⟩
        · refine .inr ⟨h5, fun he a' ha => ?_⟩
          rcases List.mem_cons.1 ha with rfl | ha
          · exact h2
          · exact h6 he a' ha

/-- Some response of the node has an action with this property. -/
def Answered (s : State) (p : Action → Prop) : Prop :=
  ∃ n, ∃ c ∈ content s.responses n, ∃ a ∈ c.actions, p a

/-- What is known about the attributes `connect` sets; `B` tells whether the modem may be connected
without having been checked. -/
structure Info (B : Prop) (s : State) : Prop where
  uid : ∀ u, s.uid = some u → Answered s fun a => ReturnsUid a u
  firmware : ∀ f, s.firmwareVersion = some f → Answered s fun a => ReturnsFirmware a f
  connected : s.connected = true → B ∨ s.uid.isSome = true ∧ s.firmwareVersion.isSome = true
  called : s.connected = false → s.called = [] ∧ ∀ t m q, s.reader ≠ .callback t m q

theorem init_info (B : Prop) (c : Config) : Info B (init c) :=
  ⟨fun _ h => by (cases h), fun _ h => by (cases h), fun h => by (cases h),
    fun _ => ⟨rfl, fun _ _ _ h => by (cases h)⟩⟩

theorem info_finish {B : Prop} {s : State} (h : Info B s) (o : Outcome) : Info B (s.finish o) :=
  ⟨h.uid, h.firmware, h.connected, h.called⟩

theorem info_finishExecute {B : Prop} {s : State} (h : Info B s) (c : Caller) (l : Option Nat) :
    Info B (s.finishExecute c l) := by
  unfold State.finishExecute
  cases c with
  | app => exact info_finish h _
  | connectSkip => exact info_finish h _
  | connect =>
    simp only
    unfold State.finishConnect
    split
    · exact info_finish h _
    · exact info_finish h _
    · next c cs hc =>
      have hmem : ∃ n, c ∈ content s.responses n := by
        cases l with
        | none => cases hc
        | some n =>
          refine ⟨n, ?_⟩
          simp only [Option.bind_some] at hc
          unfold content
          rw [hc]
          simp
      obtain ⟨n, hmem⟩ := hmem
      have key : ∀ uid fw e, readInfo c.actions s.uid s.firmwareVersion = (uid, fw, e) →
          (∀ u, uid = some u → Answered s fun a => ReturnsUid a u) ∧
          (∀ f, fw = some f → Answered s fun a => ReturnsFirmware a f) ∧
          (s.uid.isSome = true → uid.isSome = true) ∧
          (s.firmwareVersion.isSome = true → fw.isSome = true) := by
        intro uid fw e he
        obtain ⟨-, h2, h3⟩ := readInfo_spec he
        refine ⟨?_, ?_, ?_, ?_⟩
        · intro u hu
          rcases h2 with ⟨n', hn', a, ha, hr⟩ | ⟨h2, -⟩
          · rw [hu] at hn'
            cases hn'
            exact ⟨n, c, hmem, a, ha, hr⟩
          · exact h.uid u (h2 ▸ hu)
        · intro u hu
          rcases h3 with ⟨n', hn', a, ha, hr⟩ | ⟨h3, -⟩
          · rw [hu] at hn'
            cases hn'
            exact ⟨n, c, hmem, a, ha, hr⟩
          · exact h.firmware u (h3 ▸ hu)
        · intro hs
          rcases h2 with ⟨n', hn', -⟩ | ⟨h2, -⟩
          · rw [hn']; rfl
          · rw [h2]; exact hs
        · intro hs
          rcases h3 with ⟨n', hn', -⟩ | ⟨h3, -⟩
          · rw [hn']; rfl
          · rw [h3]; exact hs
      split
      · next uid fw e he =>
        obtain ⟨k1, k2, k3, k4⟩ := key _ _ _ he
        refine info_finish (s := { s with uid := uid, firmwareVersion := fw }) ?_ _
        exact ⟨k1, k2, fun hc => (h.connected hc).imp id fun x => ⟨k3 x.1, k4 x.2⟩, h.called⟩
      · next uid fw he =>
        obtain ⟨k1, k2, k3, k4⟩ := key _ _ _ he
        refine info_finish (s := { s with uid := uid, firmwareVersion := fw, connected := _ }) ?_ _
        refine ⟨k1, k2, fun hc => ?_, fun hc => ?_⟩
        · simp only [Bool.or_eq_true, Bool.and_eq_true] at hc
          rcases hc with hc | hc
          · exact (h.connected hc).imp id fun x => ⟨k3 x.1, k4 x.2⟩
          · exact .inr hc
        · simp only [Bool.or_eq_false_iff] at hc
          exact h.called hc.1

theorem info_startExecute {B : Prop} {s : State} (h : Info B s) (c : Caller) (cmd : Command) (t : Int) :
    Info B (s.startExecute c cmd t) := by
  unfold State.startExecute
  simp only
  split <;> exact ⟨h.uid, h.firmware, h.connected, h.called⟩

theorem answered_mono {s s' : State} {p : Action → Prop} {log : List (Sink × Int × Msg)}
    (h : HandedOver s s' log) (ha : Answered s p) : Answered s' p := by
  obtain ⟨n, c, hc, a, ha, hp⟩ := ha
  refine ⟨n, c, ?_, a, ha, hp⟩
  have hx : Msg.command c ∈ (content s'.responses n).map Msg.command := by
    rw [h.responses n]
    exact List.mem_append_left _ (List.mem_map_of_mem hc)
  obtain ⟨c', hc', hcc⟩ := List.mem_map.1 hx
  cases hcc
  exact hc'

theorem info_step {B : Prop} {s s' : State} {e : Event} (hs : Info B s) (hr : ReaderOk s)
    (hB : s.config.skip = true → B) (he : ∀ r, e = .call (.connect false r) → B)
    (h : s.step e = some s') : Info B s' := by
  obtain ⟨log, hlog⟩ : ∃ log, HandedOver s s' log := by
    obtain ⟨-, log, hl, -⟩ := step_handedOver hr h
    exact ⟨log, hl⟩
  have mono := fun {p} (ha : Answered s p) => answered_mono hlog ha
  have other : s'.uid = s.uid → s'.firmwareVersion = s.firmwareVersion → s'.connected = s.connected →
      (s.connected = false → s'.called = [] ∧ ∀ t m q, s'.reader ≠ .callback t m q) → Info B s' := by
    intro h1 h2 h3 h4
    refine ⟨fun u hu => mono (hs.uid u (h1 ▸ hu)), fun u hu => mono (hs.firmware u (h2 ▸ hu)), ?_, ?_⟩
    · rw [h1, h2, h3]; exact hs.connected
    · rw [h3]; exact h4
  cases e with
  | call c =>
    simp only [State.step] at h
    split at h <;> cases h
    cases c with
    | execute cmd t => exact info_startExecute hs _ _ _
    | connect ca r =>
      simp only [State.startCall]
      have con : B → Info B { s with connected := true } := fun hb =>
        ⟨hs.uid, hs.firmware, fun _ => .inl hb, fun h => by cases h⟩
      split
      · exact info_finish hs _
      · split
        · next hca =>
          have : ca = false := by simpa using hca
          subst this
          exact info_finish (con (he r rfl)) _
        · split
          · exact info_finish hs _
          · split
            · next hk => exact info_startExecute (con (hB hk)) _ _ _
            · exact info_startExecute hs _ _ _
    | clearUnsolicited => exact ⟨hs.uid, hs.firmware, hs.connected, hs.called⟩
    | clearRebooted => exact ⟨hs.uid, hs.firmware, hs.connected, hs.called⟩
  | main =>
    simp only [State.step] at h
    unfold State.mainStep at h
    split at h
    · cases h
    · cases h; exact other rfl rfl rfl hs.called
    · cases h; exact other rfl rfl rfl hs.called
    · cases h; exact other rfl rfl rfl hs.called
    · cases h; exact other rfl rfl rfl hs.called
    · simp only at h
      split at h <;> cases h
      · refine info_finishExecute ?_ _ _
        exact ⟨hs.uid, hs.firmware, hs.connected, hs.called⟩
      · exact other rfl rfl rfl hs.called
    · split at h <;> cases h
      exact info_finishExecute hs _ _
  | timeout =>
    simp only [State.step] at h
    unfold State.timeoutStep at h
    split at h <;> cases h
    exact info_finishExecute hs _ _
  | rx bs =>
    simp only [State.step] at h
    unfold State.rxStep at h
    split at h
    · split at h <;> cases h <;> exact other rfl rfl rfl fun hc => ⟨(hs.called hc).1, by simp⟩
    · cases h
  | serialError =>
    simp only [State.step] at h
    unfold State.serialErrorStep at h
    split at h <;> cases h
    exact other rfl rfl rfl fun hc => ⟨(hs.called hc).1, by simp⟩
  | callbackRaises =>
    simp only [State.step] at h
    unfold State.raiseStep at h
    split at h
    · next hx =>
      cases h
      exact other rfl rfl rfl fun hc => absurd hx ((hs.called hc).2 _ _ _)
    · cases h; exact other rfl rfl rfl fun hc => ⟨(hs.called hc).1, by simp⟩
    · cases h
  | reader =>
    have u := step_untouched h rfl
    refine other u.uid u.firmware u.connected fun hc => ?_
    simp only [State.step] at h
    unfold State.readerStep at h
    split at h
    · cases h
    · cases h
    · cases h; exact ⟨(hs.called hc).1, by simp⟩
    · split at h <;> cases h <;> exact ⟨(hs.called hc).1, by simp⟩
    · cases h; exact ⟨(hs.called hc).1, by simp⟩
    · cases h; exact ⟨(hs.called hc).1, by simp⟩
    · cases h; exact ⟨(hs.called hc).1, by simp⟩
    · split at h
      · next hx => rw [hc] at hx; simp at hx
      · split at h
        · split at h <;> cases h <;> exact ⟨(hs.called hc).1, by simp⟩
        · split at h
          · cases h; exact ⟨(hs.called hc).1, by simp⟩
          · split at h <;> cases h <;> exact ⟨(hs.called hc).1, by simp⟩
    · next hx => exact absurd hx ((hs.called hc).2 _ _ _)
    all_goals cases h; exact ⟨(hs.called hc).1, by simp⟩

theorem info_run {B : Prop} {s s' : State} {es : List Event} (hs : Info B s) (hr : ReaderOk s)
    (hB : s.config.skip = true → B) (he : ∀ r, Event.call (.connect false r) ∈ es → B)
    (h : s.run es = some s') : Info B s' := by
  have : Info B s' ∧ ReaderOk s' ∧ s'.config = s.config := by
    refine run_induction (P := fun t => Info B t ∧ ReaderOk t ∧ t.config = s.config) h ⟨hs, hr, rfl⟩ ?_
    rintro a e b ⟨h1, h2, h3⟩ hmem hst
    obtain ⟨h4, -, -, h5⟩ := step_handedOver h2 hst
    exact ⟨info_step h1 h2 (by rw [h3]; exact hB) (fun r hr => he r (hr ▸ hmem)) hst, h4,
      by rw [h5, h3]⟩
  exact this.1

end Verif.Modem
