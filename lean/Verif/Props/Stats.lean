import Verif.Model.Stats

/-! C103: the statistics of the MQTT bridge. -/

namespace Verif.Stats

open Verif

/-- The calls of `keep_stats` among these calls. -/
def kept (cs : List Call) : Nat := (cs.filter fun c => c = .keep).length

/-- C103: no message is lost and none is reported twice: the numbers logged and the number not logged yet add up to the number of
messages kept. -/
theorem C103_sum (cs : List Call) :
    ((Stats.init.run cs).logged.map Prod.snd).sum + (Stats.init.run cs).bridged = kept cs := by
  have key : ∀ (cs : List Call) (s : Stats),
      ((s.run cs).logged.map Prod.snd).sum + (s.run cs).bridged = (s.logged.map Prod.snd).sum + s.bridged + kept cs := by
    intro cs
    induction cs with
    | nil => intro s; rfl
    | cons c cs ih =>
      intro s
      cases c with
      | keep =>
        simp only [Stats.run, ih]
        simp only [Stats.keep, kept, List.filter_cons]
        simp
        omega
      | report a b =>
        simp only [Stats.run, ih]
        have : kept (.report a b :: cs) = kept cs := by simp [kept]
        rw [this]
        unfold Stats.report
        split
        · split
          · simp
          · rfl
        · rfl
  have := key cs .init
  simpa [Stats.init] using this

example : (Stats.init.run [.keep, .keep, .report 1000000 1000001, .keep, .report 2000000 2000001, .report 20000000 20000001, .keep]) =
    ⟨1, 35000001, [(1000000, 2), (20000000, 1)]⟩ := by decide

/-- C103: every number logged is positive, and with a clock that is not set back while the method runs, more than 15 seconds lie between
two of them. -/
theorem C103_spacing (cs : List Call) (hclock : ∀ a b, Call.report a b ∈ cs → a ≤ b) :
    (∀ x ∈ (Stats.init.run cs).logged, 0 < x.2) ∧
      (Stats.init.run cs).logged.Pairwise fun x y => x.1 + 15000000 < y.1 := by
  have key : ∀ (cs : List Call) (s : Stats), (∀ a b, Call.report a b ∈ cs → a ≤ b) →
      (∀ x ∈ s.logged, 0 < x.2 ∧ x.1 + 15000000 ≤ s.next) → (s.logged.Pairwise fun x y => x.1 + 15000000 < y.1) →
      (∀ x ∈ (s.run cs).logged, 0 < x.2) ∧ (s.run cs).logged.Pairwise fun x y => x.1 + 15000000 < y.1 := by
    intro cs
    induction cs with
    | nil => intro s _ h1 h2; exact ⟨fun x hx => (h1 x hx).1, h2⟩
    | cons c cs ih =>
      intro s hc h1 h2
      have hc' := fun a b h => hc a b (List.mem_cons_of_mem _ h)
      cases c with
      | keep => exact ih s.keep hc' h1 h2
      | report a b =>
        have hab := hc a b (List.mem_cons_self ..)
        simp only [Stats.run]
        unfold Stats.report
        split
        · next hn =>
          split
          · refine ih _ hc' ?_ ?_
            · intro x hx
              simp only [List.mem_append, List.mem_singleton] at hx
              rcases hx with hx | rfl
              · have := h1 x hx; simp only; exact ⟨this.1, by omega⟩
              · simp only; constructor <;> omega
            · simp only [List.pairwise_append]
              refine ⟨h2, List.pairwise_singleton _ _, fun x hx y hy => ?_⟩
              rw [List.mem_singleton] at hy
              subst hy
              have := h1 x hx
              simp only
              omega
          · refine ih _ hc' (fun x hx => ?_) h2
            have := h1 x hx
            simp only
            exact ⟨this.1, by omega⟩
        · exact ih s hc' h1 h2
  exact key cs .init hclock (fun x hx => by cases hx) List.Pairwise.nil

example : ∀ a b, Call.report a b ∈ [Call.keep, .report 1000000 1000001, .keep, .report 20000000 20000001] → a ≤ b := by
  intro a b h
  simp at h
  omega

/-- C103: a call that comes more than 15 seconds after all earlier ones reports every message kept so far. -/
theorem C103_reported (cs : List Call) (a b : Int) (h0 : 0 < a) (h : ∀ a' b', Call.report a' b' ∈ cs → b' + 15000000 < a) :
    (Stats.init.run (cs ++ [.report a b])).bridged = 0 ∧
      ((Stats.init.run (cs ++ [.report a b])).logged.map Prod.snd).sum = kept cs := by
  have key : ∀ (cs : List Call) (s : Stats), s.next < a → (∀ a' b', Call.report a' b' ∈ cs → b' + 15000000 < a) →
      (s.run (cs ++ [.report a b])).bridged = 0 := by
    intro cs
    induction cs with
    | nil =>
      intro s hs _
      simp only [List.nil_append, Stats.run]
      unfold Stats.report
      rw [if_pos hs]
      split
      · rfl
      · simp only; omega
    | cons c cs ih =>
      intro s hs hc
      have hc' := fun a b h => hc a b (List.mem_cons_of_mem _ h)
      cases c with
      | keep => exact ih s.keep hs hc'
      | report a' b' =>
        have := hc a' b' (List.mem_cons_self ..)
        refine ih _ ?_ hc'
        unfold Stats.report
        split
        · split <;> exact this
        · exact hs
  have h1 := key cs .init h0 h
  have h2 := C103_sum (cs ++ [.report a b])
  refine ⟨h1, ?_⟩
  rw [h1] at h2
  simpa [kept] using h2

example : (∀ a b, Call.report a b ∈ [Call.keep, .report 1000000 1000001, .keep] → b + 15000000 < 20000000) ∧
    (Stats.init.run [.keep, .report 1000000 1000001, .keep, .report 20000000 20000001]).logged = [(1000000, 1), (20000000, 1)] := by
  refine ⟨fun a b h => ?_, by decide⟩
  simp at h
  omega

/-- C103: the main loop ends with the first Ctrl-C and not before. -/
theorem C103_loop (s : Stats) (ws : List (Wake × Int × Int)) :
    ∀ n, (loop s ws).2 = some n ↔ ∃ before a b after, ws = before ++ (.interrupt, a, b) :: after ∧
      (∀ w ∈ before, w.1 = .signal) ∧ after.length = n := by
  induction ws generalizing s with
  | nil => intro n; simp [loop]
  | cons w ws ih =>
    obtain ⟨w, a, b⟩ := w
    intro n
    cases w with
    | signal =>
      simp only [loop, ih]
      constructor
      · rintro ⟨before, a', b', after, rfl, h1, h2⟩
        exact ⟨(.signal, a, b) :: before, a', b', after, rfl, by simpa using h1, h2⟩
      · rintro ⟨before, a', b', after, h, h1, h2⟩
        cases before with
        | nil => cases h
        | cons x xs =>
          simp only [List.cons_append, List.cons.injEq] at h
          exact ⟨xs, a', b', after, h.2, fun w hw => h1 w (by simp [hw]), h2⟩
    | interrupt =>
      simp only [loop, Option.some.injEq]
      constructor
      · intro h; exact ⟨[], a, b, ws, rfl, by simp, h⟩
      · rintro ⟨before, a', b', after, h, h1, h2⟩
        cases before with
        | nil => simp only [List.nil_append, List.cons.injEq] at h; rw [h.2]; exact h2
        | cons x xs =>
          simp only [List.cons_append, List.cons.injEq] at h
          have := h1 x (by simp)
          rw [← h.1] at this
          cases this

example : (loop .init [(.signal, 1, 2), (.interrupt, 3, 4), (.signal, 5, 6)]).2 = some 1 := by decide

/-- C103, full statement: the bridge reports the number of messages it has bridged. This is false: `keep_stats` is never called, and
however often and long it runs, nothing is reported. -/
theorem C103_silent_refuted (ws : List (Wake × Int × Int)) : (loop .init ws).1.logged = [] := by
  have key : ∀ (ws : List (Wake × Int × Int)) (s : Stats), s.bridged = 0 → s.logged = [] → (loop s ws).1.logged = [] := by
    intro ws
    induction ws with
    | nil => intro s _ h; exact h
    | cons w ws ih =>
      obtain ⟨w, a, b⟩ := w
      intro s h1 h2
      have h3 : (s.report a b).bridged = 0 ∧ (s.report a b).logged = [] := by
        unfold Stats.report
        split
        · rw [if_neg (by omega)]; exact ⟨h1, h2⟩
        · exact ⟨h1, h2⟩
      cases w with
      | signal => exact ih _ h3.1 h3.2
      | interrupt => exact h3.2
  exact key ws .init rfl rfl

example : (loop .init [(.signal, 1000000, 1000001), (.signal, 20000000, 20000001)]).1 = ⟨0, 35000001, []⟩ := by decide

end Verif.Stats
