import Verif.Spec.ThroughputOne
import Verif.Lemmas.ThroughputRun
import Verif.Lemmas.HexTool
import Verif.Props.ModemCalls

/-! The throughput test with one device: lemmas. -/

namespace Verif.Throughput

open Verif Verif.Serial Verif.Modem Verif.Examples

namespace So

theorem run_induction {a : Args} {u : List Char} {P : Sender → Prop} {s s' : Sender} {es : List SenderEvent}
    (h : s.run a u es = some s') (hs : P s) (ih : ∀ s e s', P s → s.step a u e = some s' → P s') : P s' := by
  induction es generalizing s with
  | nil => cases h; exact hs
  | cons e es ih' =>
    unfold Sender.run at h
    cases hst : s.step a u e with
    | none => rw [hst] at h; cases h
    | some s1 =>
      rw [hst] at h
      exact ih' h (ih s e s1 hs hst)

/-- The place in the test with two devices. -/
def toPlace : SPlace → Place
  | .connect => .connect
  | .connecting => .connecting
  | .profile => .profile
  | .profileRunning => .profileRunning
  | .address => .receiver
  | .activate p => .activate p
  | .activating p => .activating p
  | .make p => .make p
  | .send p c k => .send p c k
  | .sending p c k => .sending p c k
  | .rate p => .rate p
  | .done => .done
  | .failed => .failed

/-- The address is known here; and it is known to fit. -/
def knows : SPlace → Bool
  | .connect | .connecting | .profile | .profileRunning | .address | .failed => false
  | _ => true

def fits : SPlace → Bool
  | .activating p | .make p => p = .unicast
  | .send p _ _ | .sending p _ _ | .rate p => p.usesUid
  | .done => true
  | _ => false

/-- All that is sent, in the best case. -/
def whole (a : Args) (u : List Char) (t : Tags) : List (List UInt8) :=
  match hexInt u with
  | .error _ => preparation t
  | .ok v => if 0 ≤ v ∧ v ≤ 0xFFFFFFFFFFFFFFFF then script a v.toNat t else broadcasts a t

/-- The number that the messages are addressed to, if there is one. -/
def target (u : List Char) : Nat :=
  match hexInt u with
  | .error _ => 0
  | .ok v => v.toNat

def Inv (a : Args) (u : List Char) (s : Sender) : Prop := ∃ t ps, WriteInv ps s.tx ∧
  Tr.Cond a t (target u) ps s.tx.main s.tx.connected s.tx.outcomes.getLast? .running (some (target u)) (toPlace s.place) ∧
  (knows s.place = true → ∃ v, hexInt u = .ok v ∧ s.address = some v) ∧
  (fits s.place = true → ∀ v, hexInt u = .ok v → 0 ≤ v ∧ v ≤ 0xFFFFFFFFFFFFFFFF) ∧
  (s.place = .failed → ps <+: whole a u t)

theorem phase_cases (p : Phase) (r : UInt8) (v n : Int) (c : Command) (h : p.command r v n = .ok c) :
    p.command r (v.toNat : Int) n = .ok c ∧ (p.usesUid = true → 0 ≤ v ∧ v ≤ 0xFFFFFFFFFFFFFFFF) := by
  by_cases hu : p.usesUid = true
  · by_cases hv : 0 ≤ v ∧ v ≤ 0xFFFFFFFFFFFFFFFF
    · exact ⟨by rw [Int.toNat_of_nonneg hv.1]; exact h, fun _ => hv⟩
    · unfold Phase.command at h
      rw [cfg_error p v hu hv] at h
      cases h
  · refine ⟨?_, fun h => absurd h hu⟩
    cases p <;> first | exact h | exact absurd rfl hu

theorem messages_ignore (a : Args) (u : Nat) (t : Tags) (p : Phase) (h : p.usesUid = false) :
    messages a u t p = messages a 0 t p := by
  cases p <;> first | rfl | cases h

theorem prep_broadcasts (a : Args) (t : Tags) : preparation t <+: broadcasts a t :=
  ⟨[activation t.class1] ++ messages a 0 t .broadcastQos ++ [activation t.class2] ++ messages a 0 t .broadcast,
    by unfold broadcasts; simp only [List.append_assoc]⟩

/-- As long as nothing has gone wrong, only these have been sent. -/
theorem cond_whole {a : Args} {u : List Char} {s : Sender} {t : Tags} {ps : List (List UInt8)} (hf : s.place ≠ .failed)
    (hc : Tr.Cond a t (target u) ps s.tx.main s.tx.connected s.tx.outcomes.getLast? .running (some (target u))
      (toPlace s.place))
    (hk : knows s.place = true → ∃ v, hexInt u = .ok v ∧ s.address = some v)
    (hb : fits s.place = true → ∀ v, hexInt u = .ok v → 0 ≤ v ∧ v ≤ 0xFFFFFFFFFFFFFFFF) : ps <+: whole a u t := by
  have early : ps <+: preparation t → ps <+: whole a u t := by
    intro h
    unfold whole
    split
    · exact h
    · split
      · exact h.trans (Tr.prep_prefix _ _ _)
      · exact h.trans (prep_broadcasts _ _)
  have inside : ∀ v, hexInt u = .ok v → (0 ≤ v ∧ v ≤ 0xFFFFFFFFFFFFFFFF) → ps <+: whole a u t := by
    intro v hv hr
    have := Tr.cond_prefix hc
    unfold whole
    rw [hv]
    simp only [if_pos hr]
    unfold target at this
    rw [hv] at this
    exact this
  by_cases hkn : knows s.place = true
  · obtain ⟨v, hv, -⟩ := hk hkn
    by_cases hr : 0 ≤ v ∧ v ≤ 0xFFFFFFFFFFFFFFFF
    · exact inside v hv hr
    · have hnf : fits s.place = false := by
        cases hx : fits s.place with
        | false => rfl
        | true => exact absurd (hb hx v hv) hr
      have hw : whole a u t = broadcasts a t := by unfold whole; rw [hv]; simp only [if_neg hr]
      rw [hw]
      have e1 := messages_ignore a (target u) t .broadcastQos rfl
      have e2 := messages_ignore a (target u) t .broadcast rfl
      have b1 : Tr.before a (target u) t .broadcastQos ++ messages a (target u) t .broadcastQos <+: broadcasts a t :=
        ⟨[activation t.class2] ++ messages a 0 t .broadcast,
          by unfold broadcasts; rw [e1]; simp only [Tr.before, List.append_assoc]⟩
      have b2 : Tr.before a (target u) t .broadcast ++ messages a (target u) t .broadcast <+: broadcasts a t :=
        ⟨[], by unfold broadcasts; rw [← e1, ← e2]; simp only [Tr.before, List.append_assoc, List.append_nil]⟩
      have b3 : Tr.before a (target u) t .unicastQos <+: broadcasts a t :=
        ⟨[], by unfold broadcasts; rw [← e1, ← e2]; simp only [Tr.before, List.append_assoc, List.append_nil]⟩
      have b : ∀ p, p ≠ .unicast → Tr.before a (target u) t p <+: broadcasts a t := by
        intro p hp
        cases p
        · exact (List.prefix_append _ _).trans b1
        · exact (List.prefix_append _ _).trans b2
        · exact b3
        · exact absurd rfl hp
      have bm : ∀ p, p.usesUid = false → Tr.before a (target u) t p ++ messages a (target u) t p <+: broadcasts a t := by
        intro p hp
        cases p <;> first | exact b1 | exact b2 | cases hp
      have br : ∀ p k, p.usesUid = false → Tr.before a (target u) t p ++
          List.replicate (a.count.toNat - k) (p.bytes (t.message p) (target u) a.size.toNat) <+: broadcasts a t :=
        fun p k hp => ((List.prefix_append_right_inj _).2 (Tr.replicate_prefix _)).trans (bm p hp)
      cases hp : s.place <;> rw [hp] at hc hkn hnf hf <;> simp only [knows, Bool.false_eq_true] at hkn
      · obtain ⟨h1, -, h2, -⟩ := hc
        rw [h1]
        refine (Tr.entry_prefix _ _ _ _).trans (b _ ?_)
        rcases h2 with rfl | rfl <;> simp
      · next p => rw [hc.1]; exact b p (by simpa [fits] using hnf)
      · next p => rw [hc.1]; exact b p (by simpa [fits] using hnf)
      · rw [hc.1]; exact br _ _ hnf
      · obtain ⟨-, -, ⟨-, h⟩ | ⟨h, -⟩, -⟩ := hc
        · rw [h]; exact br _ _ hnf
        · rw [h]; exact (List.prefix_append _ _).trans (bm _ hnf)
      · rw [hc.1]; exact bm _ hnf
      · cases hnf
  · apply early
    cases hp : s.place <;> rw [hp] at hc hkn hf <;> simp only [knows, not_true_eq_false, Bool.false_eq_true] at hkn
    · rw [hc.1]; exact List.nil_prefix
    · rw [show ps = _ from hc]; exact List.take_prefix _ _
    · rw [hc.1]; exact List.take_prefix _ _
    · rw [show ps = _ from hc]; exact List.prefix_rfl
    · rw [hc.1]; exact List.prefix_rfl
    · exact absurd rfl hf

theorem failed_inv {a : Args} {u : List Char} {s s' : Sender} (h : Inv a u s) (ht : s'.tx = s.tx)
    (hp : s'.place = .failed) : Inv a u s' := by
  obtain ⟨t, ps, hw, hc, hk, hb, hf⟩ := h
  refine ⟨t, ps, by rw [ht]; exact hw, ?_, ?_, ?_, fun _ => ?_⟩
  · rw [hp]; exact Tr.cond_prefix hc
  · rw [hp]; intro h; cases h
  · rw [hp]; intro h; cases h
  · by_cases hx : s.place = .failed
    · exact hf hx
    · exact cond_whole hx hc hk hb

theorem callStep_cases {s s' : Sender} {n : SPlace} (h : s.callStep n = some s') :
    s'.address = s.address ∧
    ((s.tx.main = .idle ∧ s'.tx = s.tx ∧ (s'.place = n ∧ (∀ e, s.tx.outcomes.getLast? ≠ some (.raised e)) ∨
        s'.place = .failed)) ∨
      (s.tx.step .main = some s'.tx ∧ s'.place = s.place)) := by
  unfold Sender.callStep at h
  split at h
  · next hi =>
    split at h <;> cases h
    · exact ⟨rfl, .inl ⟨hi, rfl, .inr rfl⟩⟩
    · next hn => exact ⟨rfl, .inl ⟨hi, rfl, .inl ⟨rfl, fun e he => hn e he⟩⟩⟩
  · obtain ⟨m, h1, rfl⟩ := Option.map_eq_some_iff.1 h
    exact ⟨rfl, .inr ⟨h1, rfl⟩⟩

theorem executeStep_ok {s s' : Sender} {n : SPlace} {t : Int} {c : Command} (h : s.executeStep n t (.ok c) = some s') :
    s.tx.step (.call (.execute c t)) = some s'.tx ∧ s'.place = n ∧ s'.address = s.address := by
  obtain ⟨m, h1, rfl⟩ := Option.map_eq_some_iff.1 h
  exact ⟨h1, rfl, rfl⟩

theorem call_inv {a : Args} {u : List Char} {s s' : Sender} {n : SPlace} (hs : Inv a u s) (h : s.callStep n = some s')
    (hns : s.place ≠ .failed) (hnf : n ≠ .failed)
    (hkn : knows n = true → knows s.place = true) (hfn : fits n = true → fits s.place = true)
    (hn : s.tx.main = .idle → (∀ e, s.tx.outcomes.getLast? ≠ some (.raised e)) → ∀ t ps,
      Tr.Cond a t (target u) ps s.tx.main s.tx.connected s.tx.outcomes.getLast? .running (some (target u))
        (toPlace s.place) →
      Tr.Cond a t (target u) ps s.tx.main s.tx.connected s.tx.outcomes.getLast? .running (some (target u)) (toPlace n)) :
    Inv a u s' := by
  obtain ⟨h1, ⟨h3, h4, ⟨h5, h6⟩ | h5⟩ | ⟨h3, h4⟩⟩ := callStep_cases h
  · obtain ⟨t, ps, hw, hc, hk, hb, hf⟩ := hs
    refine ⟨t, ps, by rw [h4]; exact hw, ?_, ?_, ?_, ?_⟩
    · rw [h4, h5]; exact hn h3 h6 t ps hc
    · rw [h5, h1]; exact fun hx => hk (hkn hx)
    · rw [h5]; exact fun hx => hb (hfn hx)
    · rw [h5]; exact fun hx => absurd hx hnf
  · exact failed_inv hs h4 h5
  · obtain ⟨t, ps, hw, hc, hk, hb, hf⟩ := hs
    refine ⟨t, ps, writeInv_keep hw (by simp) h3, ?_, ?_, ?_, ?_⟩
    · rw [h4]; exact Tr.cond_busy (fun hi => (idle_no hi).1 h3) hc
    · rw [h4, h1]; exact hk
    · rw [h4]; exact hb
    · rw [h4]; exact fun hx => absurd hx hns

theorem inv_main {a : Args} {u : List Char} {s s' : Sender} {r : UInt8} (hi : Inv a u s)
    (h : s.mainStep a u r = some s') : Inv a u s' := by
  have hi' := hi
  unfold Sender.mainStep at h
  split at h
  · next hp =>
    obtain ⟨t, ps, hw, hc, hk, hb, hf⟩ := hi
    rw [hp] at hc
    obtain ⟨rfl, hm, hcon⟩ := hc
    obtain ⟨m, h1, rfl⟩ := Option.map_eq_some_iff.1 h
    have := writeInv_step hw h1
    simp [asked, hcon, Mqtt.question_bytes] at this
    exact ⟨{ t with identify := r }, _, this, rfl, by simp [knows], by simp [fits], by simp⟩
  · next hp =>
    refine call_inv hi h (by rw [hp]; simp) (by simp) (by simp [knows]) (by simp [fits]) (fun hm _ t ps hc => ?_)
    rw [hp] at hc; exact ⟨hc, hm⟩
  · next hp =>
    obtain ⟨t, ps, hw, hc, hk, hb, hf⟩ := hi
    rw [hp] at hc
    rw [Tr.senderProfile_eq] at h
    obtain ⟨h1, h2, h3⟩ := executeStep_ok h
    have := Tr.execute_write hw h1
    rw [Tr.senderProfile_bytes r _ (Tr.senderProfile_eq r), hc.1] at this
    refine ⟨{ t with profile := r }, _, this, ?_, ?_, ?_, ?_⟩ <;> rw [h2]
    · rfl
    all_goals simp [knows, fits]
  · next hp =>
    refine call_inv hi h (by rw [hp]; simp) (by simp) (by simp [knows]) (by simp [fits]) (fun hm _ t ps hc => ?_)
    rw [hp] at hc; exact ⟨hc, hm⟩
  · next hp =>
    split at h
    · cases h; exact failed_inv hi rfl rfl
    next v hv =>
    cases h
    obtain ⟨t, ps, hw, hc, hk, hb, hf⟩ := hi
    rw [hp] at hc
    exact ⟨t, ps, hw, ⟨hc.1, hc.2, .inl rfl, rfl, rfl⟩, fun _ => ⟨v, hv, rfl⟩, by simp [fits], by simp⟩
  · next p hp =>
    obtain ⟨t, ps, hw, hc, hk, hb, hf⟩ := hi
    rw [hp] at hc hk
    obtain ⟨hps, hm, hpp, hs, hu⟩ := hc
    rw [classCommand_eq] at h
    obtain ⟨h1, h2, h3⟩ := executeStep_ok h
    have := Tr.execute_write hw h1
    rw [class_bytes r, hps] at this
    rcases hpp with rfl | rfl
    · refine ⟨{ t with class1 := r }, _, this, ?_, ?_, ?_, ?_⟩ <;> rw [h2]
      · exact ⟨rfl, hs, hu⟩
      · rw [h3]; exact fun _ => hk rfl
      · simp [fits]
      · simp
    · refine ⟨{ t with class2 := r }, _, this, ?_, ?_, ?_, ?_⟩ <;> rw [h2]
      · exact ⟨rfl, hs, hu⟩
      · rw [h3]; exact fun _ => hk rfl
      · simp [fits]
      · simp
  · next p hp =>
    refine call_inv hi h (by rw [hp]; simp) (by simp) (by rw [hp]; simp [knows]) (by rw [hp]; simp [fits])
      (fun hm _ t ps hc => ?_)
    rw [hp] at hc; exact ⟨hc.1, hm, hc.2⟩
  · next p hp =>
    split at h
    · cases h
    next v hv =>
    split at h
    · cases h; exact failed_inv hi rfl rfl
    next c hcmd =>
    cases h
    obtain ⟨t, ps, hw, hc, hk, hb, hf⟩ := hi
    rw [hp] at hc hk
    obtain ⟨v', hv', ha⟩ := hk rfl
    rw [hv] at ha
    cases ha
    obtain ⟨hps, hm, hs, hu'⟩ := hc
    obtain ⟨hcmd', hr⟩ := phase_cases p r v a.size c hcmd
    have htar : target u = v.toNat := by unfold target; rw [hv']
    refine ⟨{ t with message := Function.update t.message p r }, ps, hw, ⟨?_, hm, ?_, le_refl _, .inr rfl, rfl, rfl⟩,
      fun _ => ⟨v, hv', hv⟩, fun hx w hw' => ?_, by simp⟩
    · rw [hps]
      cases p <;> simp [Tr.before, preparation, messages, Function.update_of_ne]
    · rw [htar]; simpa using hcmd'
    · rw [hv'] at hw'; cases hw'; exact hr hx
  · next p c hp =>
    cases h
    obtain ⟨t, ps, hw, hc, hk, hb, hf⟩ := hi
    rw [hp] at hc hk hb
    obtain ⟨hps, hm, hcmd, -, hl, hs, hu⟩ := hc
    exact ⟨t, ps, hw, ⟨by rw [hps]; rfl, hm, hs, hu, hl.imp_right Eq.symm⟩, hk, hb, by simp⟩
  · next p c k hp =>
    obtain ⟨t, ps, hw, hc, hk', hb', hf⟩ := hi
    rw [hp] at hc hk' hb'
    obtain ⟨hps, hm, hcmd, hk, hl, hs, hu⟩ := hc
    obtain ⟨h1, h2, h3⟩ := executeStep_ok h
    have hb := Tr.phase_sendable p _ _ _ c hcmd
    have := Tr.execute_write hw h1
    by_cases hlim : a.size ≤ p.limit
    · rw [hb, if_pos hlim, hps] at this
      refine ⟨t, _, this, ?_, ?_, ?_, ?_⟩ <;> rw [h2]
      · refine ⟨hcmd, by omega, .inl ⟨hlim, ?_⟩, hs, hu⟩
        rw [← Tr.replicate_more _ hk]
        simp
      · rw [h3]; exact hk'
      · exact hb'
      · simp
    · have hk1 : k + 1 = a.count.toNat := hl.resolve_left hlim
      obtain ⟨h4, h5⟩ := Tr.execute_raises hw (by rw [hb, if_neg hlim]) h1
      rw [hb, if_neg hlim, hps] at this
      refine ⟨t, _, this, ?_, ?_, ?_, ?_⟩ <;> rw [h2]
      · refine ⟨hcmd, by omega, .inr ⟨?_, h4, h5⟩, hs, hu⟩
        rw [← hk1]; simp
      · rw [h3]; exact hk'
      · exact hb'
      · simp
  · next p c k hp =>
    refine call_inv hi h (by rw [hp]; simp) (by simp) (by rw [hp]; simp [knows]) (by rw [hp]; simp [fits])
      (fun hm hn t ps hc => ?_)
    rw [hp] at hc
    obtain ⟨hcmd, hk, ⟨hl, hps⟩ | ⟨-, -, e, he⟩, hs, hu⟩ := hc
    · exact ⟨hps, hm, hcmd, by omega, .inl hl, hs, hu⟩
    · exact absurd he (hn e)
  · next p hp =>
    cases h
    obtain ⟨t, ps, hw, hc, hk, hb, hf⟩ := hi
    rw [hp] at hc hk hb
    obtain ⟨hps, hm, hs, hu, hl⟩ := hc
    refine ⟨t, ps, hw, ?_, ?_, ?_, ?_⟩
    · cases p
      · exact ⟨hps, hm, .inr rfl, hs, hu⟩
      · exact ⟨hps, hm, hs, hu⟩
      · exact ⟨hps, hm, hs, hu⟩
      · exact ⟨hps, hm, hs, hu, hl⟩
    · exact fun _ => hk rfl
    · cases p <;> simp [afterRun, fits] <;> exact hb rfl
    · cases p <;> simp [afterRun]
  · cases h
  · cases h

theorem inv_step {a : Args} {u : List Char} {s s' : Sender} {e : SenderEvent} (hi : Inv a u s)
    (h : s.step a u e = some s') : Inv a u s' := by
  unfold Sender.step at h
  split at h
  · cases h
  next hne =>
  have hnf : s.place ≠ .failed := fun hx => hne (.inr hx)
  have tx : ∀ f, ((∃ bs, f = .rx bs) ∨ f = .reader ∨ f = .callbackRaises ∨ f = .serialError) →
      ((s.tx.step f).map fun m => { s with tx := m }) = some s' → Inv a u s' := by
    intro f hf h
    obtain ⟨m, h3, rfl⟩ := Option.map_eq_some_iff.1 h
    obtain ⟨t, ps, hw, hc, hk, hb, hx⟩ := hi
    refine ⟨t, ps, writeInv_keep hw (by rcases hf with ⟨_, rfl⟩ | rfl | rfl | rfl <;> simp) h3, ?_, hk, hb, hx⟩
    have := Pu.readerEvent_same hf h3
    rw [show ({ s with tx := m } : Sender).tx = m from rfl, Tr.reader_outcomes hf h3, this.main, this.connected]
    exact hc
  cases e with
  | main r => exact inv_main hi h
  | sameTime =>
    simp only at h
    split at h <;> cases h
    exact failed_inv hi rfl rfl
  | timeout =>
    obtain ⟨m, h1, rfl⟩ := Option.map_eq_some_iff.1 h
    obtain ⟨t, ps, hw, hc, hk, hb, hx⟩ := hi
    exact ⟨t, ps, writeInv_keep hw (by simp) h1, Tr.cond_busy (fun hm => (idle_no hm).2 h1) hc, hk, hb, hx⟩
  | rx bs => exact tx _ (.inl ⟨bs, rfl⟩) h
  | reader => exact tx _ (.inr (.inl rfl)) h
  | serialError => exact tx _ (.inr (.inr (.inr rfl))) h

theorem inv_run {a : Args} {u : List Char} {s : Sender} {es : List SenderEvent} (h : Sender.start.run a u es = some s) :
    Inv a u s :=
  run_induction (P := Inv a u) h ⟨⟨0, 0, 0, 0, fun _ => 0⟩, [], ⟨rfl, rfl⟩, ⟨rfl, rfl, rfl⟩, by simp [Sender.start, knows],
    by simp [Sender.start, fits], by simp [Sender.start]⟩ fun _ _ _ => inv_step

theorem written_run {a : Args} {u : List Char} {s : Sender} {es : List SenderEvent}
    (h : Sender.start.run a u es = some s) : ∃ t, s.tx.written <+: framesFrom 0 (whole a u t) := by
  obtain ⟨t, ps, hw, hc, hk, hb, hf⟩ := inv_run h
  have hp : ps <+: whole a u t := by
    by_cases hx : s.place = .failed
    · exact hf hx
    · exact cond_whole hx hc hk hb
  refine ⟨t, ?_⟩
  obtain ⟨rest, hr⟩ := hp
  rw [← hr, framesFrom_append, ← hw.2]
  exact ⟨unwritten s.tx.main ++ framesFrom (0 + ps.length) rest, by simp⟩

/-! ### The end -/

/-- Steps without the device. -/
def Reaches (a : Args) (u : List Char) (s s' : Sender) : Prop :=
  ∃ es, (∀ e ∈ es, Unanswered e = true) ∧ s.run a u es = some s'

theorem run_append {a : Args} {u : List Char} {s s' : Sender} {es es' : List SenderEvent} :
    s.run a u (es ++ es') = some s' ↔ ∃ s1, s.run a u es = some s1 ∧ s1.run a u es' = some s' := by
  induction es generalizing s with
  | nil => simp [Sender.run]
  | cons e es ih =>
    simp only [List.cons_append, Sender.run]
    cases s.step a u e with
    | none => simp
    | some s1 => simpa using ih

theorem Reaches.refl {a : Args} {u : List Char} (s : Sender) : Reaches a u s s := ⟨[], by simp, rfl⟩

theorem Reaches.trans {a : Args} {u : List Char} {s s1 s2 : Sender} (h : Reaches a u s s1) (h' : Reaches a u s1 s2) :
    Reaches a u s s2 := by
  obtain ⟨es, h1, h2⟩ := h
  obtain ⟨es', h3, h4⟩ := h'
  refine ⟨es ++ es', fun e he => ?_, run_append.2 ⟨_, h2, h4⟩⟩
  rcases List.mem_append.1 he with he | he
  · exact h1 e he
  · exact h3 e he

theorem Reaches.step {a : Args} {u : List Char} {s s1 : Sender} {e : SenderEvent} (he : Unanswered e = true)
    (h : s.step a u e = some s1) : Reaches a u s s1 :=
  ⟨[e], by simpa using he, by unfold Sender.run; rw [h]; rfl⟩

theorem Reaches.main {a : Args} {u : List Char} {s s1 : Sender} (r : UInt8) (h1 : s.place ≠ .done)
    (h2 : s.place ≠ .failed) (h : s.mainStep a u r = some s1) : Reaches a u s s1 :=
  .step (e := .main r) rfl (by simp only [Sender.step, h1, h2, or_self, if_false]; exact h)

/-- A method of the modem is running. -/
def busy : SPlace → Option SPlace
  | .connecting => some .profile
  | .profileRunning => some .address
  | .activating p => some (.make p)
  | .sending p c k => some (.send p c k)
  | _ => none

theorem busy_main {a : Args} {u : List Char} {s : Sender} {n : SPlace} (h : busy s.place = some n) (r : UInt8) :
    s.place ≠ .done ∧ s.place ≠ .failed ∧ s.mainStep a u r = s.callStep n := by
  cases hp : s.place <;> rw [hp] at h <;> cases h <;> simp [Sender.mainStep, hp]

/-- Steps of the method are steps of the program. -/
theorem lift_tx {a : Args} {u : List Char} {n : SPlace} {es : List Modem.Event} :
    ∀ {s : Sender} {m : Modem.State}, busy s.place = some n → (∀ e ∈ es, e = .main ∨ e = .timeout) →
      s.tx.run es = some m → Reaches a u s { s with tx := m } := by
  induction es with
  | nil => intro s m _ _ h; cases h; exact .refl s
  | cons e es ih =>
    intro s m hb he h
    unfold Modem.State.run at h
    cases hst : s.tx.step e with
    | none => rw [hst] at h; cases h
    | some m1 =>
      rw [hst] at h
      have hrest := ih (s := { s with tx := m1 }) hb (fun x hx => he x (by simp [hx])) h
      obtain ⟨h1, h2, h3⟩ := busy_main (a := a) (u := u) hb 0
      refine Reaches.trans ?_ hrest
      rcases he e (by simp) with rfl | rfl
      · refine .main 0 h1 h2 ?_
        rw [h3]
        unfold Sender.callStep
        rw [if_neg (fun hi => (idle_no hi).1 hst), hst]
        rfl
      · exact .step (e := .timeout) rfl (by simp only [Sender.step, h1, h2, or_self, if_false, hst]; rfl)

/-- The program comes out of a method of the modem. -/
theorem leave_call {a : Args} {u : List Char} {s : Sender} {n : SPlace} (hb : busy s.place = some n) :
    ∃ s', Reaches a u s s' ∧ (s'.place = n ∨ s'.place = .failed) := by
  obtain ⟨k, m, -, hr, hm⟩ := C46_ends s.tx
  have hs : Reaches a u s { s with tx := m } := by
    rcases hr with hr | hr
    · exact lift_tx hb (fun e he => .inl (List.mem_replicate.1 he).2) hr
    · refine lift_tx hb (fun e he => ?_) hr
      rcases List.mem_append.1 he with he | he
      · exact .inl (List.mem_replicate.1 he).2
      · exact .inr (List.mem_singleton.1 he)
  obtain ⟨h1, h2, h3⟩ := busy_main (a := a) (u := u) (s := { s with tx := m }) hb 0
  unfold Sender.callStep at h3
  rw [if_pos hm] at h3
  split at h3
  · exact ⟨_, hs.trans (.main 0 h1 h2 h3), .inr rfl⟩
  · exact ⟨_, hs.trans (.main 0 h1 h2 h3), .inl rfl⟩

/-- How much is still to do. -/
def runRank (a : Args) : Phase → Nat
  | .broadcastQos => 3 * (2 * a.count.toNat + 10)
  | .broadcast => 2 * (2 * a.count.toNat + 10)
  | .unicastQos => 2 * a.count.toNat + 10
  | .unicast => 0

def rank (a : Args) : SPlace → Nat
  | .connect => 4 * (2 * a.count.toNat + 10) + 5
  | .connecting => 4 * (2 * a.count.toNat + 10) + 4
  | .profile => 4 * (2 * a.count.toNat + 10) + 3
  | .profileRunning => 4 * (2 * a.count.toNat + 10) + 2
  | .address => 4 * (2 * a.count.toNat + 10) + 1
  | .activate p => runRank a p + 2 * a.count.toNat + 7
  | .activating p => runRank a p + 2 * a.count.toNat + 6
  | .make p => runRank a p + 2 * a.count.toNat + 5
  | .send p _ k => runRank a p + 2 * k + 3
  | .sending p _ k => runRank a p + 2 * k + 4
  | .rate p => runRank a p + 2
  | .done => 0
  | .failed => 0

theorem next_place {a : Args} {u : List Char} {s : Sender} (hi : Inv a u s) (h1 : s.place ≠ .done)
    (h2 : s.place ≠ .failed) : ∃ s', Reaches a u s s' ∧ rank a s'.place < rank a s.place := by
  have fin : ∀ s' : Sender, s.mainStep a u 0 = some s' → rank a s'.place < rank a s.place →
      ∃ s', Reaches a u s s' ∧ rank a s'.place < rank a s.place := fun s' h h' => ⟨s', .main 0 h1 h2 h, h'⟩
  have call : ∀ n, busy s.place = some n → rank a n < rank a s.place →
      ∃ s', Reaches a u s s' ∧ rank a s'.place < rank a s.place := by
    intro n hb hn
    obtain ⟨s', h3, h4 | h4⟩ := leave_call (a := a) (u := u) hb
    · exact ⟨s', h3, by rw [h4]; exact hn⟩
    · exact ⟨s', h3, by rw [h4]; exact lt_of_le_of_lt (Nat.zero_le _) hn⟩
  have exec : ∀ n t x, s.mainStep a u 0 = s.executeStep n t x → s.tx.main = .idle → rank a n < rank a s.place →
      ∃ s', Reaches a u s s' ∧ rank a s'.place < rank a s.place := by
    intro n t x hx hm hn
    cases x with
    | error => exact fin _ hx (lt_of_le_of_lt (Nat.zero_le _) hn)
    | ok c =>
      refine fin { s with tx := s.tx.startCall (.execute c t), place := n } (hx.trans ?_) hn
      simp [Sender.executeStep, Modem.State.step, hm]
  obtain ⟨t, ps, hw, hc, hk, hb, hf⟩ := hi
  cases hp : s.place with
  | connect =>
    rw [hp] at hc
    refine hp ▸ fin { s with tx := s.tx.startCall (.connect true 0), place := .connecting } ?_ ?_
    · simp [Sender.mainStep, hp, Modem.State.step, hc.2.1]
    · rw [hp]; simp [rank]
  | connecting => exact hp ▸ call .profile (by rw [hp]; rfl) (by rw [hp]; simp [rank])
  | profile =>
    rw [hp] at hc
    exact hp ▸ exec .profileRunning _ _ (by simp only [Sender.mainStep, hp]; rfl) hc.2 (by rw [hp]; simp [rank])
  | profileRunning => exact hp ▸ call .address (by rw [hp]; rfl) (by rw [hp]; simp [rank])
  | address =>
    cases hx : hexInt u with
    | error e => exact hp ▸ fin { s with place := .failed } (by simp [Sender.mainStep, hp, hx]) (by rw [hp]; simp [rank])
    | ok v =>
      exact hp ▸ fin { s with place := .activate .broadcastQos, address := some v } (by simp [Sender.mainStep, hp, hx])
        (by rw [hp]; simp [rank, runRank]; omega)
  | activate p =>
    rw [hp] at hc
    exact hp ▸ exec (.activating p) _ _ (by simp only [Sender.mainStep, hp]; rfl) hc.2.1 (by rw [hp]; simp [rank])
  | activating p => exact hp ▸ call (.make p) (by rw [hp]; rfl) (by rw [hp]; simp [rank])
  | make p =>
    rw [hp] at hk
    obtain ⟨v, -, hv⟩ := hk rfl
    cases hx : p.command 0 v a.size with
    | error e =>
      exact hp ▸ fin { s with place := .failed } (by simp [Sender.mainStep, hp, hv, hx]) (by rw [hp]; simp [rank])
    | ok c =>
      exact hp ▸ fin { s with place := .send p c a.count.toNat } (by simp [Sender.mainStep, hp, hv, hx])
        (by rw [hp]; simp [rank])
  | send p c k =>
    rw [hp] at hc
    cases k with
    | zero => exact hp ▸ fin { s with place := .rate p } (by simp [Sender.mainStep, hp]) (by rw [hp]; simp [rank])
    | succ k =>
      exact hp ▸ exec (.sending p c k) _ _ (by simp only [Sender.mainStep, hp]; rfl) hc.2.1
        (by rw [hp]; simp only [rank]; omega)
  | sending p c k => exact hp ▸ call (.send p c k) (by rw [hp]; rfl) (by rw [hp]; simp [rank])
  | rate p =>
    refine hp ▸ fin { s with place := afterRun p } (by simp [Sender.mainStep, hp]) ?_
    rw [hp]
    cases p <;> simp [rank, afterRun, runRank] <;> omega
  | done => exact absurd hp h1
  | failed => exact absurd hp h2

theorem can_end {a : Args} {u : List Char} (n : Nat) : ∀ {s : Sender}, rank a s.place < n → Inv a u s →
    ∃ s', Reaches a u s s' ∧ (s'.place = .done ∨ s'.place = .failed) := by
  induction n with
  | zero => intro s h; exact absurd h (by omega)
  | succ n ih =>
    intro s hn hi
    by_cases h1 : s.place = .done
    · exact ⟨s, .refl s, .inl h1⟩
    by_cases h2 : s.place = .failed
    · exact ⟨s, .refl s, .inr h2⟩
    obtain ⟨s1, h3, h4⟩ := next_place hi h1 h2
    obtain ⟨es, h8, h5⟩ := h3
    have hi1 : Inv a u s1 := run_induction (P := Inv a u) h5 hi fun _ _ _ => inv_step
    obtain ⟨s2, h6, h7⟩ := ih (by omega) hi1
    exact ⟨s2, Reaches.trans ⟨es, h8, h5⟩ h6, h7⟩

/-! ### A device that does not answer -/

/-- A call that is not answered. -/
theorem unanswered_call {m : Modem.State} {caller : Caller} {tag : Option Int} {f : List UInt8} {t : Int}
    (h : m.main = .run .resetList caller tag f t) (ht : t ≠ 0) :
    ∃ m', m.run (Modem.mains 5 ++ [.timeout]) = some m' ∧ m'.main = .idle ∧ m'.config = m.config ∧
      ∀ e, m'.outcomes.getLast? ≠ some (.raised e) := by
  have key : ∃ m2 : Modem.State, m.run (Modem.mains 5) = some m2 ∧ m2.main = .run .wait caller tag f t ∧
      m2.completed = false ∧ m2.config = m.config := by
    refine ⟨{ m with
      responses := m.responses ++ [[]], tag := (if t > 0 then tag else none), completed := false
      written := m.written ++ f, main := .run .wait caller tag f t }, ?_, rfl, rfl, rfl⟩
    simp [Modem.mains, List.replicate_succ, Modem.State.run, Modem.State.step, Modem.State.mainStep, h, ht]
  obtain ⟨m2, h1, h2, h3, h4⟩ := key
  refine ⟨m2.finishExecute caller none, ?_, finishExecute_main _ _ _, ?_, ?_⟩
  · refine Modem.run_append.2 ⟨m2, h1, ?_⟩
    simp [Modem.State.run, Modem.State.step, Modem.State.timeoutStep, h2, h3]
  · rw [← h4]; cases caller <;> rfl
  · intro e
    cases caller <;> simp [Modem.State.finishExecute, Modem.State.finishConnect, Modem.State.finish]

/-- A command that fits is sent, and no answer comes. -/
theorem silent_call {a : Args} {u : List Char} {s : Sender} {n n' : SPlace} {x : Modem.Call} (hi : s.tx.main = .idle)
    (h1 : s.place ≠ .done) (h2 : s.place ≠ .failed)
    (hs : s.mainStep a u 0 = (s.tx.step (.call x)).map fun m => { s with tx := m, place := n })
    {caller : Caller} {tag : Option Int} {f : List UInt8} {t : Int}
    (hx : (s.tx.startCall x).main = .run .resetList caller tag f t) (hc : (s.tx.startCall x).config = s.tx.config)
    (ht : t ≠ 0) (hb : busy n = some n') :
    ∃ m, Reaches a u s { s with tx := m, place := n' } ∧ m.main = .idle ∧ m.config = s.tx.config := by
  obtain ⟨m, h3, h4, h5, h6⟩ := unanswered_call hx ht
  have hstep : s.tx.step (.call x) = some (s.tx.startCall x) := by simp [Modem.State.step, hi]
  rw [hstep] at hs
  refine ⟨m, ?_, h4, h5.trans hc⟩
  refine Reaches.trans (.main 0 h1 h2 hs) (Reaches.trans (lift_tx (n := n') hb (fun e he => ?_) h3) ?_)
  · rcases List.mem_append.1 he with he | he
    · exact .inl (List.mem_replicate.1 he).2
    · exact .inr (List.mem_singleton.1 he)
  · obtain ⟨h7, h8, h9⟩ := busy_main (a := a) (u := u) (s := { s with tx := m, place := n }) hb 0
    refine .main 0 h7 h8 (h9.trans ?_)
    unfold Sender.callStep
    rw [if_pos h4]
    split
    · next e he => exact absurd he (h6 e)
    · rfl

theorem startExecute_runs {m : Modem.State} {ps : List (List UInt8)} {c : Command} {bs : List UInt8} {t : Int}
    (hw : WriteInv ps m) (hk : m.config.skip = false) (hc : sendable c = some bs) (caller : Caller) :
    ∃ f, (m.startExecute caller c t).main = .run .resetList caller c.tagId f t ∧
      (m.startExecute caller c t).config = m.config := by
  have hb := buildSerialFrame_sendable (p := m.parser) (n := ps.length) hw.1 c
  rw [hc] at hb
  obtain ⟨q, hq, -⟩ := hb
  refine ⟨frame (UInt8.ofNat ps.length) 1 bs, ?_, ?_⟩ <;> simp [Modem.State.startExecute, hq, hk]

/-- The program is at this place, the modem is not in use, and the device has not been heard of. -/
def At (a : Args) (u : List Char) (p : SPlace) : Prop :=
  ∃ s, Reaches a u Sender.start s ∧ s.place = p ∧ s.tx.main = .idle ∧ s.tx.config = senderConfig ∧
    (knows p = true → ∃ v, hexInt u = .ok v ∧ s.address = some v)

theorem at_inv {a : Args} {u : List Char} {s : Sender} (h : Reaches a u Sender.start s) : Inv a u s := by
  obtain ⟨es, -, h⟩ := h
  exact inv_run h

/-- A step of the main thread that does not use the modem. -/
theorem at_main {a : Args} {u : List Char} {p q : SPlace} (h : At a u p) (h1 : p ≠ .done) (h2 : p ≠ .failed)
    (hs : ∀ s : Sender, s.place = p → (knows p = true → ∃ v, hexInt u = .ok v ∧ s.address = some v) →
      ∃ w, s.mainStep a u 0 = some { s with place := q, address := w } ∧
        (knows q = true → ∃ v, hexInt u = .ok v ∧ w = some v)) : At a u q := by
  obtain ⟨s, h3, rfl, h5, h6, h7⟩ := h
  obtain ⟨w, h8, h9⟩ := hs s rfl h7
  exact ⟨_, h3.trans (.main 0 h1 h2 h8), rfl, h5, h6, h9⟩

/-- A command is sent. -/
theorem at_execute {a : Args} {u : List Char} {p n q : SPlace} (h : At a u p) (h1 : p ≠ .done) (h2 : p ≠ .failed)
    {c : Command} {bs : List UInt8} {t : Int} (ht : t ≠ 0) (hc : sendable c = some bs)
    (hs : ∀ s : Sender, s.place = p → s.mainStep a u 0 = s.executeStep n t (.ok c)) (hb : busy n = some q)
    (hk : knows q = true → knows p = true) : At a u q := by
  obtain ⟨s, h3, rfl, h5, h6, h7⟩ := h
  obtain ⟨t0, ps, hw, -⟩ := at_inv h3
  obtain ⟨f, h8, h9⟩ := startExecute_runs (t := t) hw (by rw [h6]; rfl) hc .app
  obtain ⟨m, h10, h11, h12⟩ := silent_call (a := a) (u := u) (n := n) (n' := q) (x := .execute c t) h5 h1 h2
    (hs s rfl) h8 h9 ht hb
  exact ⟨_, h3.trans h10, rfl, h11, h12.trans h6, fun hx => h7 (hk hx)⟩

theorem at_address (a : Args) (u : List Char) : At a u .address := by
  have h0 : At a u .connect := ⟨Sender.start, .refl _, rfl, rfl, rfl, by simp [knows]⟩
  have h1 : At a u .profile := by
    obtain ⟨s, h3, h4, h5, h6, -⟩ := h0
    obtain ⟨t0, ps, hw, hcond, -⟩ := at_inv h3
    rw [h4] at hcond
    obtain ⟨-, -, hcon⟩ := hcond
    have hstart : s.tx.startCall (.connect true 0) = s.tx.startExecute .connect (question 0) 10 := by
      simp [Modem.State.startCall, hcon, h6, senderConfig]
      rfl
    obtain ⟨f, h8, h9⟩ := startExecute_runs (t := 10) hw (by rw [h6]; rfl) (Mqtt.question_bytes 0) .connect
    obtain ⟨m, h10, h11, h12⟩ := silent_call (a := a) (u := u) (n := .connecting) (n' := .profile)
      (x := .connect true 0) h5 (by rw [h4]; simp) (by rw [h4]; simp) (by simp only [Sender.mainStep, h4])
      (by rw [hstart]; exact h8) (by rw [hstart]; exact h9) (by decide) rfl
    exact ⟨_, h3.trans h10, rfl, h11, h12.trans h6, by simp [knows]⟩
  exact at_execute (n := .profileRunning) (t := 1) h1 (by simp) (by simp) (by decide)
    (Tr.senderProfile_bytes 0 _ (Tr.senderProfile_eq 0))
    (fun s hs => by simp only [Sender.mainStep, hs, Tr.senderProfile_eq]) rfl (by simp [knows])

theorem at_runs {a : Args} {u : List Char} {p : Phase} {v : Int} (hv : hexInt u = .ok v)
    (hr : 0 ≤ v ∧ v ≤ 0xFFFFFFFFFFFFFFFF) (hl : a.size ≤ 234) (h : At a u (.make p)) :
    At a u (afterRun p) := by
  obtain ⟨c, hc⟩ : ∃ c, p.command 0 v a.size = .ok c := by
    obtain ⟨cfg, h1, -⟩ := cfg_ok p v (fun _ => hr)
    exact ⟨_, command_ok p 0 v a.size cfg h1 (by omega)⟩
  have hcs : sendable c = some (p.bytes 0 v.toNat a.size.toNat) := by
    have := Tr.phase_sendable p 0 v.toNat a.size c (phase_cases p 0 v a.size c hc).1
    rw [if_pos (by cases p <;> simp [Phase.limit] <;> omega)] at this
    exact this
  have hsend : At a u (.send p c a.count.toNat) := at_main h (by simp) (by simp) fun s hs hk => by
    obtain ⟨w, hw, ha⟩ := hk rfl
    rw [hv] at hw
    cases hw
    exact ⟨some v, by simp [Sender.mainStep, hs, ha, hc], fun _ => ⟨v, hv, rfl⟩⟩
  have hall : ∀ k, At a u (.send p c k) → At a u (.send p c 0) := by
    intro k
    induction k with
    | zero => exact id
    | succ k ih =>
      intro h
      exact ih (at_execute (n := .sending p c k) (t := 100) h (by simp) (by simp) (by decide) hcs
        (fun s hs => by simp only [Sender.mainStep, hs]) rfl (by simp [knows]))
  have hrate : At a u (.rate p) := at_main (hall _ hsend) (by simp) (by simp) fun s hs hk => by
    obtain ⟨w, hw, ha⟩ := hk rfl
    exact ⟨some w, by simp [Sender.mainStep, hs, ha], fun _ => ⟨w, hw, rfl⟩⟩
  exact at_main hrate (by simp) (by simp) fun s hs hk => by
    obtain ⟨w, hw, ha⟩ := hk rfl
    exact ⟨some w, by simp [Sender.mainStep, hs, ha], fun _ => ⟨w, hw, rfl⟩⟩

theorem at_class {a : Args} {u : List Char} {p : Phase} (h : At a u (.activate p)) : At a u (.make p) :=
  at_execute (n := .activating p) (t := 1) h (by simp) (by simp) (by decide) (class_bytes 0)
    (fun s hs => by simp only [Sender.mainStep, hs, classCommand_eq]) rfl (by simp [knows])

theorem at_done {a : Args} {u : List Char} {v : Int} (hv : hexInt u = .ok v)
    (hr : 0 ≤ v ∧ v ≤ 0xFFFFFFFFFFFFFFFF) (hl : a.size ≤ 234) : At a u .done := by
  have h1 : At a u (.activate .broadcastQos) := at_main (at_address a u) (by simp) (by simp) fun s hs _ =>
    ⟨some v, by simp [Sender.mainStep, hs, hv], fun _ => ⟨v, hv, rfl⟩⟩
  have h2 : At a u (.activate .broadcast) := at_runs hv hr hl (at_class h1)
  have h3 : At a u (.make .unicastQos) := at_runs hv hr hl (at_class h2)
  have h4 : At a u (.make .unicast) := at_runs hv hr hl h3
  exact at_runs hv hr hl h4

/-! ### The number given as text -/

section
open Verif.HexTool

theorem white_space (c : Char) : isWhite c = isSpace c := rfl

theorem isHex_iff (c : Char) : isHex c = true ↔ ∃ n, IsDigit c n := by
  unfold isHex
  constructor
  · intro h
    obtain ⟨n, hn⟩ := Option.isSome_iff_exists.1 h
    exact ⟨n, ((hexDigit_iff c n).1 hn).2⟩
  · rintro ⟨n, hn⟩
    have : n < 16 := by
      rcases hn with h | h <;> simpa using (List.getElem?_eq_some_iff.1 h).1
    rw [(hexDigit_iff c n).2 ⟨this, hn⟩]; rfl

theorem hex_white {c : Char} (h : isHex c = true) : isWhite c = false := by
  obtain ⟨n, hn⟩ := (isHex_iff c).1 h
  exact digit_not_space hn

theorem white_hex {c : Char} (h : isWhite c = true) : isHex c = false := by
  cases hx : isHex c with
  | false => rfl
  | true => rw [hex_white hx] at h; cases h

theorem blank_white {s : List Char} (h : Blank s) : ∀ c ∈ s, isWhite c = true := fun c hc =>
  (isSpace_iff c).2 (h c hc)

theorem white_blank {s : List Char} (h : ∀ c ∈ s, isWhite c = true) : Blank s := fun c hc =>
  (isSpace_iff c).1 (h c hc)

theorem value_digits : ∀ {ds : List Char} {ns : List Nat}, List.Forall₂ IsDigit ds ns → ∀ acc,
    ds.foldl (fun v c => 16 * v + (hexDigit c).getD 0) acc = 16 ^ ns.length * acc + Nat.ofDigits 16 ns.reverse := by
  intro ds ns h
  induction h with
  | nil => intro acc; simp
  | @cons c n ds ns hc _ ih =>
    intro acc
    have : n < 16 := by rcases hc with h | h <;> simpa using (List.getElem?_eq_some_iff.1 h).1
    rw [List.foldl_cons, ih, (hexDigit_iff c n).2 ⟨this, hc⟩, List.reverse_cons, Nat.ofDigits_append]
    simp only [Option.getD_some, List.length_reverse, Nat.ofDigits_singleton, List.length_cons]
    ring

theorem dropWhile_all {f : Char → Bool} {w s : List Char} (h : ∀ c ∈ w, f c = true) :
    (w ++ s).dropWhile f = s.dropWhile f := by
  induction w with
  | nil => rfl
  | cons c w ih => rw [List.cons_append, List.dropWhile_cons, if_pos (h c (by simp))]; exact ih fun x hx => h x (by simp [hx])

theorem mem_taken {f : Char → Bool} {s : List Char} {c : Char} (h : c ∈ s.takeWhile f) : f c = true := by
  induction s with
  | nil => cases h
  | cons d s ih =>
    rw [List.takeWhile_cons] at h
    split at h
    · rcases List.mem_cons.1 h with rfl | h
      · assumption
      · exact ih h
    · cases h

theorem takeWhile_all {f : Char → Bool} {w s : List Char} (h : ∀ c ∈ w, f c = true) :
    (w ++ s).takeWhile f = w ++ s.takeWhile f := by
  induction w with
  | nil => rfl
  | cons c w ih =>
    rw [List.cons_append, List.takeWhile_cons, if_pos (h c (by simp)), ih fun x hx => h x (by simp [hx])]; rfl

/-- The part after sign and blanks. -/
def body (neg : Bool) (s : List Char) : Except PyErr Int :=
  let s := skipPrefix s
  let digits := s.takeWhile isHex
  let value := digits.foldl (fun v c => 16 * v + (hexDigit c).getD 0) 0
  if digits ≠ [] ∧ (s.dropWhile isHex).all isWhite then .ok (if neg then -(value : Int) else value)
  else .error .valueError

theorem hexInt_eq (s : List Char) : hexInt s = body (splitSign (s.dropWhile isWhite)).1
    ((splitSign (s.dropWhile isWhite)).2.dropWhile isWhite) := rfl

def Body (neg : Bool) (s : List Char) (v : Int) : Prop :=
  ∃ mark digits after, ∃ ns : List Nat, s = mark ++ digits ++ after ∧ Blank after ∧
    mark ∈ [[], ['0', 'x'], ['0', 'X']] ∧ List.Forall₂ IsDigit digits ns ∧ digits ≠ [] ∧
    v = (if neg then -1 else 1) * ((Nat.ofDigits 16 ns.reverse : Nat) : Int)

theorem all_hex {ds : List Char} {ns : List Nat} (h : List.Forall₂ IsDigit ds ns) : ∀ c ∈ ds, isHex c = true := by
  induction h with
  | nil => simp
  | cons h _ ih =>
    intro c hc
    rcases List.mem_cons.1 hc with rfl | hc
    · exact (isHex_iff _).2 ⟨_, h⟩
    · exact ih c hc

theorem hex_all {ds : List Char} (h : ∀ c ∈ ds, isHex c = true) : ∃ ns, List.Forall₂ IsDigit ds ns := by
  induction ds with
  | nil => exact ⟨[], .nil⟩
  | cons c ds ih =>
    obtain ⟨ns, hn⟩ := ih fun x hx => h x (by simp [hx])
    obtain ⟨n, hc⟩ := (isHex_iff c).1 (h c (by simp))
    exact ⟨n :: ns, .cons hc hn⟩

theorem skip_cases (s : List Char) : ∃ mark, mark ∈ [[], ['0', 'x'], ['0', 'X']] ∧ s = mark ++ skipPrefix s := by
  unfold skipPrefix
  split
  · split
    · exact ⟨['0', 'x'], by simp, rfl⟩
    · exact ⟨[], by simp, rfl⟩
  · split
    · exact ⟨['0', 'X'], by simp, rfl⟩
    · exact ⟨[], by simp, rfl⟩
  · exact ⟨[], by simp, rfl⟩

theorem hex_x : isHex 'x' = false ∧ isHex 'X' = false ∧ isWhite 'x' = false ∧ isWhite 'X' = false := by decide

theorem skip_digits {mark digits after : List Char} (hm : mark ∈ [[], ['0', 'x'], ['0', 'X']])
    (hd : ∀ c ∈ digits, isHex c = true) (hne : digits ≠ []) (ha : ∀ c ∈ after, isWhite c = true) :
    skipPrefix (mark ++ digits ++ after) = digits ++ after := by
  obtain ⟨d, ds, rfl⟩ := List.exists_cons_of_ne_nil hne
  have h1 := hd d (by simp)
  simp only [List.mem_cons, List.not_mem_nil, or_false] at hm
  rcases hm with rfl | rfl | rfl
  · simp only [List.nil_append]
    have second : ∀ c r, ds ++ after = c :: r → isHex c = true ∨ isWhite c = true := by
      intro c r hx
      have : c ∈ ds ++ after := by rw [hx]; simp
      rcases List.mem_append.1 this with h | h
      · exact .inl (hd c (by simp [h]))
      · exact .inr (ha c h)
    rw [List.cons_append]
    unfold skipPrefix
    split
    · next c r hx =>
      obtain ⟨-, hx⟩ := List.cons.inj hx
      rcases second 'x' _ hx with h | h
      · rw [hex_x.1] at h; cases h
      · rw [hex_x.2.2.1] at h; cases h
    · next c r hx =>
      obtain ⟨-, hx⟩ := List.cons.inj hx
      rcases second 'X' _ hx with h | h
      · rw [hex_x.2.1] at h; cases h
      · rw [hex_x.2.2.2] at h; cases h
    · rfl
  · simp [skipPrefix, h1]
  · simp [skipPrefix, h1]

theorem takeWhile_not {f : Char → Bool} {s : List Char} (h : ∀ c ∈ s, f c = false) : s.takeWhile f = [] := by
  cases s with
  | nil => rfl
  | cons c s => rw [List.takeWhile_cons, h c (by simp)]; rfl

theorem dropWhile_not {f : Char → Bool} {s : List Char} (h : ∀ c ∈ s, f c = false) : s.dropWhile f = s := by
  cases s with
  | nil => rfl
  | cons c s => rw [List.dropWhile_cons, h c (by simp)]; rfl

theorem body_iff (neg : Bool) (s : List Char) (v : Int) : body neg s = .ok v ↔ Body neg s v := by
  constructor
  · intro h
    unfold body at h
    simp only at h
    split at h
    · next hx =>
      obtain ⟨mark, hm, hs⟩ := skip_cases s
      have hh : ∀ c ∈ (skipPrefix s).takeWhile isHex, isHex c = true := fun c hc => mem_taken hc
      obtain ⟨ns, hns⟩ := hex_all hh
      refine ⟨mark, (skipPrefix s).takeWhile isHex, (skipPrefix s).dropWhile isHex, ns, ?_, ?_, hm, hns, hx.1, ?_⟩
      · rw [List.append_assoc, List.takeWhile_append_dropWhile]; exact hs
      · exact white_blank fun c hc => List.all_eq_true.1 hx.2 c hc
      · rw [value_digits hns] at h
        cases h
        cases neg <;> simp
    · cases h
  · rintro ⟨mark, digits, after, ns, rfl, hb, hm, hd, hne, rfl⟩
    have h1 := all_hex hd
    have h2 := blank_white hb
    have h3 : ∀ c ∈ after, isHex c = false := fun c hc => white_hex (h2 c hc)
    unfold body
    simp only
    rw [skip_digits hm h1 hne h2, takeWhile_all h1, dropWhile_all h1, takeWhile_not h3, dropWhile_not h3,
      List.append_nil, if_pos ⟨hne, List.all_eq_true.2 h2⟩, value_digits hd]
    cases neg <;> simp

theorem body_head {neg : Bool} {s : List Char} {v : Int} (h : Body neg s v) : ∃ c r, s = c :: r ∧ isHex c = true := by
  obtain ⟨mark, digits, after, ns, rfl, hb, hm, hd, hne, rfl⟩ := h
  obtain ⟨d, ds, rfl⟩ := List.exists_cons_of_ne_nil hne
  simp only [List.mem_cons, List.not_mem_nil, or_false] at hm
  rcases hm with rfl | rfl | rfl
  · exact ⟨d, ds ++ after, rfl, all_hex hd d (by simp)⟩
  · exact ⟨'0', _, rfl, by decide⟩
  · exact ⟨'0', _, rfl, by decide⟩

theorem split_cases (s : List Char) : ∃ sign, sign ∈ [[], ['+'], ['-']] ∧ s = sign ++ (splitSign s).2 ∧
    ((splitSign s).1 = true ↔ sign = ['-']) := by
  unfold splitSign
  split
  · exact ⟨['+'], by simp, rfl, by simp⟩
  · exact ⟨['-'], by simp, rfl, by simp⟩
  · exact ⟨[], by simp, rfl, by simp⟩

theorem hexInt_iff (s : List Char) (v : Int) : hexInt s = .ok v ↔ Hexadecimal s v := by
  rw [hexInt_eq, body_iff]
  constructor
  · rintro ⟨mark, digits, after, ns, hs, hb, hm, hd, hne, hv⟩
    obtain ⟨sign, h1, h2, h3⟩ := split_cases (s.dropWhile isWhite)
    refine ⟨s.takeWhile isWhite, sign, (splitSign (s.dropWhile isWhite)).2.takeWhile isWhite, mark, digits, after, ns, ?_,
      white_blank fun c hc => mem_taken hc, white_blank fun c hc => mem_taken hc, hb, h1, hm, hd,
      hne, ?_⟩
    · rw [List.append_assoc, List.append_assoc (_ ++ _) mark, ← List.append_assoc mark, ← hs,
        List.append_assoc _ (List.takeWhile _ _), List.takeWhile_append_dropWhile, List.append_assoc, ← h2,
        List.takeWhile_append_dropWhile]
    · rw [hv]
      simp only [h3]
  · rintro ⟨before, sign, gap, mark, digits, after, ns, rfl, h1, h2, h3, h4, h5, h6, h7, hv⟩
    have hbody : Body (decide (sign = ['-'])) (mark ++ digits ++ after) v :=
      ⟨mark, digits, after, ns, rfl, h3, h5, h6, h7, by simpa using hv⟩
    obtain ⟨c, r, hcr, hc⟩ := body_head hbody
    have hcw := hex_white hc
    have hdrop : (mark ++ digits ++ after).dropWhile isWhite = mark ++ digits ++ after := by
      rw [hcr, List.dropWhile_cons, hcw]; rfl
    have key : (before ++ sign ++ gap ++ mark ++ digits ++ after).dropWhile isWhite =
        (sign ++ gap ++ (mark ++ digits ++ after)).dropWhile isWhite := by
      rw [show before ++ sign ++ gap ++ mark ++ digits ++ after = before ++ (sign ++ gap ++ (mark ++ digits ++ after)) by simp]
      exact dropWhile_all (blank_white h1)
    rw [key]
    simp only [List.mem_cons, List.not_mem_nil, or_false] at h4
    rcases h4 with rfl | rfl | rfl
    · rw [List.nil_append, dropWhile_all (blank_white h2), hdrop]
      have : splitSign (mark ++ digits ++ after) = (false, mark ++ digits ++ after) := by
        rw [hcr]
        unfold splitSign
        split
        · next hx => cases hx; exact absurd hc (by decide)
        · next hx => cases hx; exact absurd hc (by decide)
        · rfl
      rw [this, hdrop]
      simpa using hbody
    · rw [show ['+'] ++ gap ++ (mark ++ digits ++ after) = '+' :: (gap ++ (mark ++ digits ++ after)) by simp,
        List.dropWhile_cons, if_neg (by decide)]
      show Body false (List.dropWhile isWhite (gap ++ (mark ++ digits ++ after))) v
      rw [dropWhile_all (blank_white h2), hdrop]
      simpa using hbody
    · rw [show ['-'] ++ gap ++ (mark ++ digits ++ after) = '-' :: (gap ++ (mark ++ digits ++ after)) by simp,
        List.dropWhile_cons, if_neg (by decide)]
      show Body true (List.dropWhile isWhite (gap ++ (mark ++ digits ++ after))) v
      rw [dropWhile_all (blank_white h2), hdrop]
      simpa using hbody

end

/-! ### The receiver -/

theorem lrun_induction {a : Args} {P : Listener → Prop} {s s' : Listener} {es : List ListenerEvent}
    (h : s.run a es = some s') (hs : P s) (ih : ∀ s e s', P s → e ∈ es → s.step a e = some s' → P s') : P s' := by
  induction es generalizing s with
  | nil => cases h; exact hs
  | cons e es ih' =>
    unfold Listener.run at h
    cases hst : s.step a e with
    | none => rw [hst] at h; cases h
    | some s1 =>
      rw [hst] at h
      exact ih' h (ih s e s1 hs (by simp) hst) fun s e' s' x b => ih s e' s' x (by simp [b])

theorem lrun_append {a : Args} {s s' : Listener} {es es' : List ListenerEvent} :
    s.run a (es ++ es') = some s' ↔ ∃ s1, s.run a es = some s1 ∧ s1.run a es' = some s' := by
  induction es generalizing s with
  | nil => simp [Listener.run]
  | cons e es ih =>
    simp only [List.cons_append, Listener.run]
    cases s.step a e with
    | none => simp
    | some s1 => simpa using ih

theorem heard_cons (e : ListenerEvent) (es : List ListenerEvent) : heard (e :: es) = heard [e] ++ heard es := by
  cases e <;> rfl

theorem lstep_rx {a : Args} {s s' : Listener} {e : ListenerEvent} (h : s.step a e = some s') :
    (s'.rx = s.rx ∧ heard [e] = []) ∨
    ∃ f, s.rx.step f = some s'.rx ∧ chunks [f] = heard [e] ∧ (f = .serialError → e = .serialError) ∧ f ≠ .restart ∧
      s'.place = s.place := by
  unfold Listener.step at h
  split at h
  · cases h
  cases e with
  | main r =>
    simp only [Listener.mainStep] at h
    split at h
    · split at h
      · cases h; exact .inl ⟨rfl, rfl⟩
      split at h
      · cases h; exact .inl ⟨rfl, rfl⟩
      obtain ⟨m, h1, rfl⟩ := Option.map_eq_some_iff.1 h
      exact .inr ⟨_, h1, rfl, by simp, by simp, rfl⟩
    · split at h
      · split at h <;> cases h; exact .inl ⟨rfl, rfl⟩
      · cases h; exact .inl ⟨rfl, rfl⟩
    · split at h
      · cases h
      split at h <;> cases h <;> exact .inl ⟨rfl, rfl⟩
    · cases h
    · cases h
  | late =>
    simp only at h
    split at h
    · split at h <;> cases h; exact .inl ⟨rfl, rfl⟩
    · cases h
  | timeout =>
    obtain ⟨m, h1, rfl⟩ := Option.map_eq_some_iff.1 h
    exact .inr ⟨_, h1, rfl, by simp, by simp, rfl⟩
  | rx bs =>
    obtain ⟨m, h1, rfl⟩ := Option.map_eq_some_iff.1 h
    exact .inr ⟨_, h1, rfl, by simp, by simp, rfl⟩
  | reader v =>
    obtain ⟨m, h1, rfl⟩ := Option.map_eq_some_iff.1 h
    exact .inr ⟨_, h1, rfl, by simp, by simp, rfl⟩
  | serialError =>
    obtain ⟨m, h1, rfl⟩ := Option.map_eq_some_iff.1 h
    exact .inr ⟨_, h1, rfl, by simp, by simp, rfl⟩

theorem lrun_rx {a : Args} {s s' : Listener} {es : List ListenerEvent} (h : s.run a es = some s') :
    ∃ fs, s.rx.run fs = some s'.rx ∧ chunks fs = heard es ∧ (∀ f ∈ fs, f ≠ .restart) ∧
      ((∀ e ∈ es, e ≠ .serialError) → ∀ f ∈ fs, Steady f) := by
  induction es generalizing s with
  | nil => cases h; exact ⟨[], rfl, rfl, by simp, by simp⟩
  | cons e es ih =>
    unfold Listener.run at h
    cases hst : s.step a e with
    | none => rw [hst] at h; cases h
    | some s1 =>
      rw [hst] at h
      obtain ⟨fs, k1, k2, k3, k4⟩ := ih h
      rcases lstep_rx hst with ⟨h5, h6⟩ | ⟨f, h5, h6, h7, h8, -⟩
      · exact ⟨fs, h5 ▸ k1, by rw [heard_cons, h6, k2]; rfl, k3, fun hx => k4 fun x hm => hx x (by simp [hm])⟩
      · refine ⟨f :: fs, ?_, by rw [chunks_cons, h6, k2, ← heard_cons], ?_, fun hx => ?_⟩
        · unfold State.run; rw [h5]; exact k1
        · intro g hg
          rcases List.mem_cons.1 hg with rfl | hg
          · exact h8
          · exact k3 g hg
        · intro g hg
          rcases List.mem_cons.1 hg with rfl | hg
          · have hne : g ≠ .serialError := fun hf => hx e (by simp) (h7 hf)
            cases g <;> trivial
          · exact k4 (fun x hm => hx x (by simp [hm])) g hg

/-- The number counted last. -/
def lastCount : LPlace → Option Nat
  | .poll total => some total
  | .check total => some total
  | _ => none

/-- The list is at least as long as the number counted last. -/
def Bound (s : Listener) : Prop := s.place ≠ .setup → s.place ≠ .failed → s.rx.stage = .running ∧
  ∃ l, s.rx.commands = some l ∧ ∀ n, lastCount s.place = some n → n ≤ l.length

theorem bound_step {a : Args} {s s' : Listener} {e : ListenerEvent} (hr : ∃ fs, init.run fs = some s.rx) (hb : Bound s)
    (h : s.step a e = some s') : Bound s' := by
  rcases lstep_rx h with ⟨h1, -⟩ | ⟨f, h1, -, -, h2, h3⟩
  · unfold Listener.step at h
    split at h
    · cases h
    have keep : s'.place = s.place → Bound s' := fun hp => by
      unfold Bound at hb ⊢; rw [hp, h1]; exact hb
    cases e with
    | main r =>
      simp only [Listener.mainStep] at h
      split at h
      · split at h
        · next hs =>
          cases h
          obtain ⟨fs, hfs⟩ := hr
          have hd := doing_run hfs
          unfold Doing at hd
          rw [hs] at hd
          obtain ⟨l, hl⟩ := Option.isSome_iff_exists.1 hd.2.2.1
          exact fun _ _ => ⟨hs, l, hl, fun n hn => by cases hn; exact Nat.zero_le _⟩
        split at h
        · cases h; exact fun _ hx => absurd rfl hx
        obtain ⟨m, h1, rfl⟩ := Option.map_eq_some_iff.1 h
        exact keep rfl
      · next n hp =>
        obtain ⟨k1, l, k2, k3⟩ := hb (by rw [hp]; simp) (by rw [hp]; simp)
        rw [k2] at h
        split at h
        · cases h; exact fun _ _ => ⟨k1, l, k2, fun n hn => by cases hn; exact le_refl _⟩
        · cases h; exact fun _ _ => ⟨k1, l, k2, fun n hn => by cases hn; exact k3 _ (by rw [hp]; rfl)⟩
      · next n hp =>
        obtain ⟨k1, l, k2, k3⟩ := hb (by rw [hp]; simp) (by rw [hp]; simp)
        rw [k2] at h
        simp only at h
        split at h <;> cases h
        · exact fun _ hx => absurd rfl hx
        · exact fun _ _ => ⟨k1, l, k2, fun n hn => by cases hn⟩
      · cases h
      · cases h
    | late =>
      simp only at h
      split at h
      · next n hp =>
        obtain ⟨k1, l, k2, k3⟩ := hb (by rw [hp]; simp) (by rw [hp]; simp)
        split at h <;> cases h
        exact fun _ _ => ⟨k1, l, k2, fun n hn => by cases hn; exact k3 _ (by rw [hp]; rfl)⟩
      · cases h
    | timeout => obtain ⟨m, h1, rfl⟩ := Option.map_eq_some_iff.1 h; exact keep rfl
    | rx bs => obtain ⟨m, h1, rfl⟩ := Option.map_eq_some_iff.1 h; exact keep rfl
    | reader v => obtain ⟨m, h1, rfl⟩ := Option.map_eq_some_iff.1 h; exact keep rfl
    | serialError => obtain ⟨m, h1, rfl⟩ := Option.map_eq_some_iff.1 h; exact keep rfl
  · intro hx hy
    rw [h3] at hx hy ⊢
    obtain ⟨k1, l, k2, k3⟩ := hb hx hy
    obtain ⟨fs, hfs⟩ := hr
    obtain ⟨l', h6, h7⟩ := Tr.commands_grow h1 k1 h2 k2
    exact ⟨(Tr.running_step h1 k1 (Tr.rx_idle hfs k1).1).1, l', h6, fun n hn => (k3 n hn).trans h7.length_le⟩

theorem bound_run {a : Args} {s : Listener} {es : List ListenerEvent} (h : Listener.start.run a es = some s) :
    (∃ fs, init.run fs = some s.rx) ∧ Bound s := by
  refine lrun_induction (P := fun s => (∃ fs, init.run fs = some s.rx) ∧ Bound s) h ⟨⟨[], rfl⟩, fun h => absurd rfl h⟩ ?_
  rintro s e s' ⟨hr, hb⟩ - hst
  refine ⟨?_, bound_step hr hb hst⟩
  obtain ⟨fs, hfs⟩ := hr
  rcases lstep_rx hst with ⟨h4, -⟩ | ⟨f, h4, -⟩
  · exact ⟨fs, by rw [h4]; exact hfs⟩
  · refine ⟨fs ++ [f], Throughput.run_append.2 ⟨_, hfs, ?_⟩⟩
    unfold State.run; rw [h4]; rfl

/-- How the main thread gets to the verdict. -/
theorem check_run {a : Args} {s s' : Listener} {es : List ListenerEvent} (h : s.run a es = some s')
    (he : ∀ e ∈ es, e ≠ .late) (hs : ∀ n, s.place ≠ .check n) : ∀ n, s'.place = .check n → a.count ≤ n := by
  refine lrun_induction (P := fun s' => ∀ n, s'.place = .check n → a.count ≤ n) h (fun n hp => absurd hp (hs n)) ?_
  intro x e y hx hm hst n hp
  rcases lstep_rx hst with ⟨h1, -⟩ | ⟨f, -, -, -, -, h3⟩
  · unfold Listener.step at hst
    split at hst
    · cases hst
    cases e with
    | main r =>
      simp only [Listener.mainStep] at hst
      split at hst
      · split at hst
        · cases hst; cases hp
        split at hst
        · cases hst; cases hp
        obtain ⟨m, h1, rfl⟩ := Option.map_eq_some_iff.1 hst
        exact hx n hp
      · split at hst
        · split at hst <;> cases hst
          cases hp
        · cases hst; cases hp; omega
      · split at hst
        · cases hst
        split at hst <;> cases hst <;> cases hp
      · cases hst
      · cases hst
    | late => exact absurd rfl (he _ hm)
    | timeout => obtain ⟨m, h1, rfl⟩ := Option.map_eq_some_iff.1 hst; exact hx n hp
    | rx bs => obtain ⟨m, h1, rfl⟩ := Option.map_eq_some_iff.1 hst; exact hx n hp
    | reader v => obtain ⟨m, h1, rfl⟩ := Option.map_eq_some_iff.1 hst; exact hx n hp
    | serialError => obtain ⟨m, h1, rfl⟩ := Option.map_eq_some_iff.1 hst; exact hx n hp
  · exact hx n (by rw [← h3]; exact hp)

/-- Steps of the reading thread. -/
theorem lift_reader {a : Args} {s : Listener} {r : State} {k : Nat} {env : Print.Env}
    (he : s.place.ended = false) (h : s.rx.run (List.replicate k (.reader env)) = some r) :
    s.run a (List.replicate k (.reader env)) = some { s with rx := r } := by
  induction k generalizing s with
  | zero => cases h; rfl
  | succ k ih =>
    rw [List.replicate_succ] at h ⊢
    unfold State.run at h
    cases hst : s.rx.step (.reader env) with
    | none => rw [hst] at h; cases h
    | some r1 =>
      rw [hst] at h
      change r1.run _ = some r at h
      unfold Listener.run
      have : s.step a (.reader env) = some { s with rx := r1 } := by
        simp [Listener.step, he, hst]
      rw [this]
      exact ih (s := { s with rx := r1 }) he h

end So
end Verif.Throughput
