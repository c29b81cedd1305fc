import Verif.Lemmas.Modem
import Verif.Props.SerialFrames

/-! Which tags the modem matches; what it receives. -/

namespace Verif.Modem

open Verif Verif.Serial

theorem run_induction {P : State → Prop} {s s' : State} {es : List Event} (h : s.run es = some s')
    (hs : P s) (ih : ∀ s e s', P s → e ∈ es → s.step e = some s' → P s') : P s' := by
  induction es generalizing s with
  | nil => cases h; exact hs
  | cons e es ih' =>
    unfold State.run at h
    cases hst : s.step e with
    | none => rw [hst] at h; cases h
    | some s1 =>
      rw [hst] at h
      exact ih' h (ih s e s1 hs (by simp) hst) fun s e' s' a b => ih s e' s' a (by simp [b])

theorem run_append {s s' : State} {es fs : List Event} :
    s.run (es ++ fs) = some s' ↔ ∃ s1, s.run es = some s1 ∧ s1.run fs = some s' := by
  induction es generalizing s with
  | nil => simp [State.run]
  | cons e es ih =>
    simp only [List.cons_append, State.run]
    cases s.step e with
    | none => simp
    | some s1 => simpa using ih

theorem infoCommand_tag {rand : UInt8} {c : Command} (h : infoCommand rand = .ok c) :
    c.tagId = some (rand.toNat : Int) := by
  have : infoCommand rand = .ok (((Command.empty rand).addAction (.regular false false (.readFileData
      ⟨⟨0, ⟨0⟩⟩, ⟨8⟩⟩))).addAction (.regular false false (.readFileData ⟨⟨2, ⟨0⟩⟩, ⟨17⟩⟩))) := rfl
  rw [this] at h
  injection h with h
  subst h
  rfl

/-- Only tags in `T` are matched, and found in the lists from number `k` on. -/
def TagsIn (T : Option Int → Prop) (k : Nat) (s : State) : Prop :=
  T s.tag ∧
  (match s.main with
    | .idle => True
    | .run _ _ tag _ timeout => timeout > 0 → T tag) ∧
  (match s.reader with
    | .sync _ c _ => T c.tagId
    | .syncAppend _ c _ _ => T c.tagId
    | _ => True) ∧
  ∀ n, k ≤ n → ∀ c ∈ content s.responses n, T c.tagId

theorem mem_content_modify {α : Type} {l : List (List α)} {n m : Nat} {a x : α}
    (h : x ∈ content (l.modify n (· ++ [a])) m) : x ∈ content l m ∨ x = a := by
  by_cases hn : n < l.length
  · rw [content_modify _ _ _ hn] at h
    rcases List.mem_append.1 h with h | h
    · exact .inl h
    · split at h
      · simp only [List.mem_singleton] at h; exact .inr h
      · cases h
  · rw [List.modify_eq_self (by omega)] at h
    exact .inl h

theorem tagsIn_startExecute {T : Option Int → Prop} {k : Nat} {s : State} (hs : TagsIn T k s) (c : Caller)
    (cmd : Command) (timeout : Int) (h : timeout > 0 → T cmd.tagId) :
    TagsIn T k (s.startExecute c cmd timeout) := by
  obtain ⟨h1, h2, h3, h4⟩ := hs
  unfold State.startExecute
  simp only
  split
  · exact ⟨h1, trivial, h3, h4⟩
  · refine ⟨h1, ?_, h3, h4⟩
    simp only
    split
    · intro h; omega
    · exact h

theorem tagsIn_finishExecute {T : Option Int → Prop} {k : Nat} {s : State} (hs : TagsIn T k s) (c : Caller)
    (l : Option Nat) : TagsIn T k (s.finishExecute c l) := by
  obtain ⟨h1, h2, h3, h4⟩ := hs
  unfold State.finishExecute
  cases c with
  | app => exact ⟨h1, trivial, h3, h4⟩
  | connectSkip => exact ⟨h1, trivial, h3, h4⟩
  | connect =>
    simp only
    unfold State.finishConnect
    split
    · exact ⟨h1, trivial, h3, h4⟩
    · exact ⟨h1, trivial, h3, h4⟩
    · split <;> exact ⟨h1, trivial, h3, h4⟩

theorem tagsIn_step {T : Option Int → Prop} {k : Nat} (hn : T none) {s s' : State} {e : Event}
    (hs : TagsIn T k s) (he : ∀ t, syncTag e = some t → T t) (h : s.step e = some s') :
    TagsIn T k s' := by
  have hs' := hs
  obtain ⟨h1, h2, h3, h4⟩ := hs
  cases e with
  | call c =>
    simp only [State.step] at h
    split at h <;> cases h
    cases c with
    | execute cmd t =>
      exact tagsIn_startExecute hs' _ _ _ fun ht => he _ (by simp [syncTag, ht])
    | connect ca r =>
      simp only [State.startCall]
      split
      · exact ⟨h1, trivial, h3, h4⟩
      · split
        · exact ⟨h1, trivial, h3, h4⟩
        · next hca =>
          split
          · exact ⟨h1, trivial, h3, h4⟩
          · next cmd hcmd =>
            have : ca = true := by simpa using hca
            subst this
            have ht := infoCommand_tag hcmd
            split
            · exact tagsIn_startExecute (s := { s with connected := true }) ⟨h1, h2, h3, h4⟩ _ _ _
                (fun h => absurd h (by decide))
            · exact tagsIn_startExecute hs' _ _ _ fun _ => by rw [ht]; exact he _ rfl
    | clearUnsolicited => exact ⟨h1, trivial, h3, h4⟩
    | clearRebooted => exact ⟨h1, trivial, h3, h4⟩
  | main =>
    simp only [State.step] at h
    unfold State.mainStep at h
    split at h
    · cases h
    · next hm =>
      rw [hm] at h2
      cases h
      exact ⟨h1, h2, h3, fun n hk c hc => h4 n hk c (by simpa [content_append_nil] using hc)⟩
    · next hm => rw [hm] at h2; cases h; exact ⟨hn, h2, h3, h4⟩
    · next hm => rw [hm] at h2; cases h; exact ⟨h1, h2, h3, h4⟩
    · next hm =>
      rw [hm] at h2
      cases h
      refine ⟨?_, h2, h3, h4⟩
      simp only
      split
      · next ht => exact h2 ht
      · exact h1
    · next hm =>
      rw [hm] at h2
      simp only at h
      split at h <;> cases h
      · refine tagsIn_finishExecute ?_ _ _
        refine ⟨h1, ?_, h3, h4⟩
        simp only [hm]
        exact h2
      · exact ⟨h1, h2, h3, h4⟩
    · split at h <;> cases h
      exact tagsIn_finishExecute hs' _ _
  | timeout =>
    simp only [State.step] at h
    unfold State.timeoutStep at h
    split at h <;> cases h
    exact tagsIn_finishExecute hs' _ _
  | rx bs =>
    simp only [State.step] at h
    unfold State.rxStep at h
    split at h
    · split at h <;> cases h <;> exact ⟨h1, h2, trivial, h4⟩
    · cases h
  | serialError =>
    simp only [State.step] at h
    unfold State.serialErrorStep at h
    split at h <;> cases h
    exact ⟨h1, h2, trivial, h4⟩
  | callbackRaises =>
    simp only [State.step] at h
    unfold State.raiseStep at h
    split at h <;> cases h <;> exact ⟨h1, h2, trivial, h4⟩
  | reader =>
    simp only [State.step] at h
    unfold State.readerStep at h
    split at h
    · cases h
    · cases h
    · cases h; exact ⟨h1, h2, trivial, h4⟩
    · split at h
      · next c hc =>
        cases h
        refine ⟨h1, h2, ?_, h4⟩
        unfold State.isSync at hc
        split at hc
        · split at hc <;> cases hc
          next hx => simp only; rw [← hx.2.1]; exact h1
        · cases hc
      · cases h; exact ⟨h1, h2, trivial, h4⟩
    · next hr => rw [hr] at h3; cases h; exact ⟨h1, h2, h3, h4⟩
    · next hr =>
      rw [hr] at h3; cases h
      refine ⟨h1, h2, trivial, fun n hk c hc => ?_⟩
      rcases mem_content_modify hc with hc | rfl
      · exact h4 n hk c hc
      · exact h3
    · cases h; exact ⟨h1, h2, trivial, h4⟩
    · split at h
      · cases h; exact ⟨h1, h2, trivial, h4⟩
      · split at h
        · split at h <;> cases h <;> exact ⟨h1, h2, trivial, h4⟩
        · split at h
          · cases h; exact ⟨h1, h2, trivial, h4⟩
          · split at h <;> cases h <;> exact ⟨h1, h2, trivial, h4⟩
    all_goals cases h; exact ⟨h1, h2, trivial, h4⟩

theorem tagsIn_run {T : Option Int → Prop} {k : Nat} (hn : T none) {s s' : State} {es : List Event}
    (hs : TagsIn T k s) (he : ∀ e ∈ es, ∀ t, syncTag e = some t → T t) (h : s.run es = some s') :
    TagsIn T k s' :=
  run_induction h hs fun _ e _ hp hm hst => tagsIn_step hn hp (he e hm) hst

theorem build_buffer (p : Parser) (g : Gen) :
    (p.buildSerialFrame g).1.buffer = p.buffer ∧
    (p.buildSerialFrame g).1.skipAlpParsing = p.skipAlpParsing := by
  unfold Parser.buildSerialFrame
  split
  · exact ⟨rfl, rfl⟩
  · split
    · exact ⟨rfl, rfl⟩
    · exact ⟨rfl, rfl⟩

/-- The same buffer contents. -/
def SameBuffer (p q : Parser) : Prop :=
  p.buffer = q.buffer ∧ p.skipAlpParsing = q.skipAlpParsing

theorem startExecute_buffer (s : State) (c : Caller) (cmd : Command) (t : Int) :
    SameBuffer (s.startExecute c cmd t).parser s.parser := by
  have h := build_buffer s.parser cmd.iter
  unfold State.startExecute
  simp only
  split <;> next e => rw [e] at h; exact h

theorem startCall_buffer (s : State) (c : Call) : SameBuffer (s.startCall c).parser s.parser := by
  cases c with
  | execute cmd t => exact startExecute_buffer _ _ _ _
  | connect ca r =>
    simp only [State.startCall]
    split
    · exact ⟨rfl, rfl⟩
    · split
      · exact ⟨rfl, rfl⟩
      · split
        · exact ⟨rfl, rfl⟩
        · split
          · exact startExecute_buffer { s with connected := true } _ _ _
          · exact startExecute_buffer _ _ _ _
  | clearUnsolicited => exact ⟨rfl, rfl⟩
  | clearRebooted => exact ⟨rfl, rfl⟩

theorem finishExecute_parser (s : State) (c : Caller) (l : Option Nat) :
    (s.finishExecute c l).parser = s.parser := by
  unfold State.finishExecute
  cases c with
  | app => rfl
  | connectSkip => rfl
  | connect =>
    simp only
    unfold State.finishConnect
    split
    · rfl
    · rfl
    · split <;> rfl

theorem mainStep_parser {s s' : State} (h : s.mainStep = some s') : s'.parser = s.parser := by
  unfold State.mainStep at h
  split at h
  · cases h
  · cases h; rfl
  · cases h; rfl
  · cases h; rfl
  · cases h; rfl
  · simp only at h
    split at h <;> cases h
    · rw [finishExecute_parser]
    · rfl
  · split at h <;> cases h
    rw [finishExecute_parser]

theorem readerStep_parser {s s' : State} (h : s.readerStep = some s') :
    s'.parser = s.parser ∧ s'.received = s.received ∧ s'.reader.isDead = false := by
  unfold State.readerStep at h
  split at h
  · cases h
  · cases h
  · cases h; exact ⟨rfl, rfl, rfl⟩
  · split at h <;> cases h <;> exact ⟨rfl, rfl, rfl⟩
  · cases h; exact ⟨rfl, rfl, rfl⟩
  · cases h; exact ⟨rfl, rfl, rfl⟩
  · cases h; exact ⟨rfl, rfl, rfl⟩
  · split at h
    · cases h; exact ⟨rfl, rfl, rfl⟩
    · split at h
      · split at h <;> cases h <;> exact ⟨rfl, rfl, rfl⟩
      · split at h
        · cases h; exact ⟨rfl, rfl, rfl⟩
        · split at h <;> cases h <;> exact ⟨rfl, rfl, rfl⟩
  all_goals cases h; exact ⟨rfl, rfl, rfl⟩

/-- A step that is not a reception keeps the buffer and the messages received. -/
theorem step_parser {s s' : State} {e : Event} (h : s.step e = some s') (he : ∀ bs, e ≠ .rx bs) :
    SameBuffer s'.parser s.parser ∧ s'.received = s.received := by
  have same : Same s s' → s'.received = s.received := fun h => h.2.2.1
  cases e with
  | call c =>
    simp only [State.step] at h
    split at h <;> cases h
    exact ⟨startCall_buffer s c, same (same_startCall s c)⟩
  | main => exact ⟨by rw [mainStep_parser h]; exact ⟨rfl, rfl⟩, same (same_mainStep h)⟩
  | timeout =>
    refine ⟨?_, same (same_timeoutStep h)⟩
    simp only [State.step] at h
    unfold State.timeoutStep at h
    split at h <;> cases h
    rw [finishExecute_parser]; exact ⟨rfl, rfl⟩
  | rx bs => exact absurd rfl (he bs)
  | serialError =>
    simp only [State.step] at h
    unfold State.serialErrorStep at h
    split at h <;> cases h
    exact ⟨⟨rfl, rfl⟩, rfl⟩
  | callbackRaises =>
    simp only [State.step] at h
    unfold State.raiseStep at h
    split at h <;> cases h <;> exact ⟨⟨rfl, rfl⟩, rfl⟩
  | reader =>
    obtain ⟨h1, h2, -⟩ := readerStep_parser h
    exact ⟨by rw [h1]; exact ⟨rfl, rfl⟩, h2⟩

/-- An ended thread stays so. -/
theorem step_dead {s s' : State} {e : Event} (h : s.step e = some s') (hd : s.reader.isDead = true) :
    s'.reader.isDead = true := by
  have same : Same s s' → s'.reader.isDead = true := fun h => by rw [h.2.1]; exact hd
  cases e with
  | call c =>
    simp only [State.step] at h
    split at h <;> cases h
    exact same (same_startCall s c)
  | main => exact same (same_mainStep h)
  | timeout => exact same (same_timeoutStep h)
  | rx bs =>
    simp only [State.step] at h
    unfold State.rxStep at h
    split at h
    · next hr => rw [hr] at hd; cases hd
    · cases h
  | serialError =>
    simp only [State.step] at h
    unfold State.serialErrorStep at h
    split at h <;> cases h
    rfl
  | callbackRaises =>
    simp only [State.step] at h
    unfold State.raiseStep at h
    split at h <;> cases h <;> rfl
  | reader =>
    simp only [State.step] at h
    unfold State.readerStep at h
    cases hr : s.reader <;> rw [hr] at hd <;> cases hd
    rw [hr] at h
    cases h

theorem parse_congr {p q : Parser} (h : SameBuffer p q) (bs : List UInt8) :
    SameBuffer (p.parse bs).1 (q.parse bs).1 ∧ (p.parse bs).2 = (q.parse bs).2 := by
  obtain ⟨h1, h2⟩ := h
  rw [parse_trace, parse_trace, h1, h2]
  unfold finish
  have a := countAll_skip p (trace q.skipAlpParsing (q.buffer ++ bs)).counts
  have b := countAll_skip q (trace q.skipAlpParsing (q.buffer ++ bs)).counts
  exact ⟨⟨rfl, by simp only; rw [a.1, b.1, h2]⟩, rfl⟩

/-- What is received is what the serial parser makes of the bytes read. -/
theorem received_feed {s s' : State} {es : List Event} (h : s.run es = some s')
    (hd : s'.reader.isDead = false) (p : Parser) (hp : SameBuffer p s.parser) :
    ∃ p' new errs, feed p (chunks es) = .ok (p', new, errs) ∧ SameBuffer p' s'.parser ∧
      s'.received = s.received ++ new := by
  induction es generalizing s p with
  | nil => cases h; exact ⟨p, [], [], rfl, hp, by simp⟩
  | cons e es ih =>
    unfold State.run at h
    cases hst : s.step e with
    | none => rw [hst] at h; cases h
    | some s1 =>
      rw [hst] at h
      by_cases he : ∃ bs, e = .rx bs
      · obtain ⟨bs, rfl⟩ := he
        have hc := parse_congr hp bs
        simp only [State.step] at hst
        unfold State.rxStep at hst
        split at hst
        · split at hst
          · next p1 e heq =>
            cases hst
            have : s'.reader.isDead = true :=
              run_induction (P := fun s => s.reader.isDead = true) h rfl
                fun _ _ _ a _ c => step_dead c a
            rw [this] at hd; cases hd
          · next p1 o heq =>
            cases hst
            rw [heq] at hc
            obtain ⟨p', new, errs, h1, h2, h3⟩ := ih h (p.parse bs).1 hc.1
            refine ⟨p', o.cmds ++ new, o.errors ++ errs, ?_, h2, by simp [h3]⟩
            simp only [chunks, feed]
            cases hpp : p.parse bs with
            | mk q r =>
              rw [hpp] at hc h1
              simp only at hc h1
              rw [hc.2]
              simp only [h1]
        · cases hst
      · have hn : ∀ bs, e ≠ .rx bs := fun bs h => he ⟨bs, h⟩
        obtain ⟨⟨b1, b2⟩, hr⟩ := step_parser hst hn
        have hch : chunks (e :: es) = chunks es := by
          cases e <;> first | rfl | exact absurd rfl (hn _)
        rw [hch]
        obtain ⟨p', new, errs, h1, h2, h3⟩ := ih h p ⟨hp.1.trans b1.symm, hp.2.trans b2.symm⟩
        exact ⟨p', new, errs, h1, h2, by rw [h3, hr]⟩

/-- The reading thread goes on as long as parsing, reading and the callbacks do not raise. -/
theorem not_dead {s s' : State} {es : List Event} (h : s.run es = some s')
    (hs : s.reader.isDead = false) (p : Parser) (hp : SameBuffer p s.parser)
    (hf : ∃ r, feed p (chunks es) = .ok r)
    (hser : Event.serialError ∉ es) (hcb : Event.callbackRaises ∉ es) :
    s'.reader.isDead = false := by
  induction es generalizing s p with
  | nil => cases h; exact hs
  | cons e es ih =>
    simp only [List.mem_cons, not_or] at hser hcb
    unfold State.run at h
    cases hst : s.step e with
    | none => rw [hst] at h; cases h
    | some s1 =>
      rw [hst] at h
      by_cases he : ∃ bs, e = .rx bs
      · obtain ⟨bs, rfl⟩ := he
        have hc := parse_congr hp bs
        obtain ⟨r, hr⟩ := hf
        simp only [chunks, feed] at hr
        simp only [State.step] at hst
        unfold State.rxStep at hst
        split at hst
        · split at hst
          · next p1 e heq =>
            rw [heq] at hc
            cases hpp : p.parse bs with
            | mk q x =>
              rw [hpp] at hc hr
              simp only at hc
              rw [hc.2] at hr
              cases hr
          · next p1 o heq =>
            cases hst
            rw [heq] at hc
            refine ih h rfl (p.parse bs).1 hc.1 ?_ hser.2 hcb.2
            cases hpp : p.parse bs with
            | mk q x =>
              rw [hpp] at hc hr
              simp only at hc
              rw [hc.2] at hr
              simp only at hr
              split at hr
              · cases hr
              · exact ⟨_, by assumption⟩
        · cases hst
      · have hn : ∀ bs, e ≠ .rx bs := fun bs h => he ⟨bs, h⟩
        obtain ⟨⟨b1, b2⟩, -⟩ := step_parser hst hn
        have hch : chunks (e :: es) = chunks es := by
          cases e <;> first | rfl | exact absurd rfl (hn _)
        rw [hch] at hf
        refine ih h ?_ p ⟨hp.1.trans b1.symm, hp.2.trans b2.symm⟩ hf hser.2 hcb.2
        have same : Same s s1 → s1.reader.isDead = false := fun h => by rw [h.2.1]; exact hs
        cases e with
        | call c =>
          simp only [State.step] at hst
          split at hst <;> cases hst
          exact same (same_startCall s c)
        | main => exact same (same_mainStep hst)
        | timeout => exact same (same_timeoutStep hst)
        | rx bs => exact absurd rfl (hn bs)
        | serialError => exact absurd rfl hser.1
        | callbackRaises => exact absurd rfl hcb.1
        | reader => exact (readerStep_parser hst).2.2

end Verif.Modem
