import Verif.Props.Device
import Verif.Lemmas.Update
import Verif.Spec.UpdateDevice

/-! The update program with a modem and a device that keeps files. -/

namespace Verif.Modem

open Verif Verif.Serial

variable {D : Type}

namespace Upd

/-- After a call. -/
structure Over (dev : Device D) (j : Job D) (s : Loop D) : Prop where
  idle : Idle s
  data : s.data = dev.after j.old.data j.ops
  responses : s.modem.responses = j.old.modem.responses ++ [[answered j.tag (j.results dev)]]
  outcomes : s.modem.outcomes = j.old.modem.outcomes ++ [.list j.old.modem.responses.length]

theorem over_run {dev : Device D} {j : Job D} {s s' : Loop D} {es : List LoopEvent} (h : Over dev j s)
    (hn : ∀ e ∈ es, ∀ c, e ≠ .call c) (hr : s.run dev es = some s') : Over dev j s' := by
  induction es generalizing s with
  | nil => simp only [Loop.run, Option.some.injEq] at hr; exact hr ▸ h
  | cons e es ih =>
    obtain ⟨s1, h1, h2⟩ := run_cons hr
    refine ih ?_ (fun x hx => hn x (by simp [hx])) h2
    rcases idle_step h.idle h1 with ⟨-, h3, rfl⟩ | ⟨c, h3, -⟩
    · exact ⟨h3, h.data, h.responses, h.outcomes⟩
    · exact absurd h3 (hn e (by simp) c)

theorem ends_over {dev : Device D} {j : Job D} {s s' : Loop D} (h : Serving dev j s) (hj : j.caller = .app)
    (he : Ends dev j s s') : Over dev j s' := by
  obtain ⟨f1, f2, f3, -⟩ := ends_idle he
  obtain ⟨-, -, -, -, -, rfl⟩ := he
  refine ⟨f1, f2, f3, ?_⟩
  rw [hj]
  show s.modem.outcomes ++ [_] = _
  rw [h.1.outcomes]

theorem serving_over {dev : Device D} {j : Job D} {s s' : Loop D} {es : List LoopEvent} (h : Serving dev j s)
    (hj : j.caller = .app) (hn : ∀ e ∈ es, ∀ c, e ≠ .call c) (hr : s.run dev es = some s') :
    Serving dev j s' ∨ Over dev j s' := by
  induction es generalizing s with
  | nil => simp only [Loop.run, Option.some.injEq] at hr; exact .inl (hr ▸ h)
  | cons e es ih =>
    obtain ⟨s1, h1, h2⟩ := run_cons hr
    have hn' : ∀ x ∈ es, ∀ c, x ≠ .call c := fun x hx => hn x (by simp [hx])
    rcases serving_step h h1 with ⟨h3, -⟩ | ⟨-, h3⟩
    · exact ih h3 hn' h2
    · exact .inr (over_run (ends_over h hj h3) hn' h2)

/-- No call is in progress. -/
theorem idle_of {config : Config} (hk : config.skip = false) {dev : Device D} {d : D} {before : List LoopEvent}
    {s : Loop D} (hp : ∀ e ∈ before, Proper e) (h0 : (Loop.start config d).run dev before = some s)
    (hm : s.modem.main = .idle) : Idle s := by
  rcases reachable (.inl (start_idle hk d)) hp h0 with h | ⟨j, -, c, t, -, hph⟩
  · exact h
  · exfalso
    cases hph with
    | before stage h => rw [hm] at h; cases h
    | sent h => rw [hm] at h; cases h
    | stuck h => rw [hm] at h; cases h
    | coming k h => rw [hm] at h; cases h
    | got h => rw [hm] at h; cases h
    | appended h => rw [hm] at h; cases h
    | done h => rw [hm] at h; cases h

/-- A write that has returned. -/
theorem returned {dev : Device D} {s s' : Loop D} {tag : UInt8} {ops : List FileOp} {r : Except PyErr (List Command)}
    (h : Idle s) (hv : ∀ op ∈ ops, op.Valid) (hl : (requestBytes tag ops).length ≤ 255)
    (hr : Returned dev s (request tag ops) r s') :
    r = .ok [answered tag (dev.results s.data ops)] ∧ s'.data = dev.after s.data ops ∧ Idle s' := by
  obtain ⟨es, o, hn, h1, h2, h3⟩ := hr
  obtain ⟨s1, h4, h5⟩ := run_cons h1
  rcases idle_step h h4 with ⟨h6, -⟩ | ⟨c, h6, rfl⟩
  · cases h6
  · cases h6
    have hs := ((execute_step h .app dev (tag := tag) (timeout := 10) hv (by decide)).1 hl).1
    rcases serving_over hs rfl hn h5 with h7 | h7
    · have := h7.1.outcomes
      rw [h2] at this
      exact absurd (congrArg List.length this) (by simp)
    · have h8 := h7.outcomes
      rw [h2] at h8
      obtain rfl : o = .list s.modem.responses.length := by simpa using h8
      refine ⟨?_, h7.data, h7.idle⟩
      rw [h3]
      simp only [content, h7.responses]
      simp

/-- There is a step to make. -/
theorem progress {dev : Device D} {j : Job D} {s : Loop D} (h : Serving dev j s)
    (ha : (answer j.tag (j.results dev)).length ≤ 255) :
    ∃ e s1, (∀ c, e ≠ .call c) ∧ s.step dev e = some s1 := by
  rcases serving_enabled h ha with h | h | h | h
  · obtain ⟨x, hx⟩ := Option.isSome_iff_exists.1 h
    exact ⟨_, x, by simp, hx⟩
  · obtain ⟨x, hx⟩ := Option.isSome_iff_exists.1 h
    exact ⟨_, x, by simp, hx⟩
  · obtain ⟨x, hx⟩ := Option.isSome_iff_exists.1 h
    exact ⟨_, x, by simp, hx⟩
  · obtain ⟨x, hx⟩ := Option.isSome_iff_exists.1 (h 0)
    exact ⟨_, x, by simp, hx⟩

/-- A call can be brought to its end. -/
theorem completes {dev : Device D} {j : Job D} (hj : j.caller = .app)
    (ha : (answer j.tag (j.results dev)).length ≤ 255) (n : Nat) {s : Loop D} (h : Serving dev j s) (hw : s.work ≤ n) :
    ∃ es s', (∀ e ∈ es, ∀ c, e ≠ .call c) ∧ s.run dev es = some s' ∧ Over dev j s' := by
  induction n generalizing s with
  | zero =>
    obtain ⟨e, s1, hn, h1⟩ := progress h ha
    have hr : s.run dev [e] = some s1 := by simp [Loop.run, h1]
    rcases serving_step h h1 with ⟨-, h3⟩ | ⟨he, h3⟩
    · omega
    · exact ⟨[e], s1, by simpa using hn, hr, ends_over h hj h3⟩
  | succ n ih =>
    obtain ⟨e, s1, hn, h1⟩ := progress h ha
    have hr : s.run dev [e] = some s1 := by simp [Loop.run, h1]
    rcases serving_step h h1 with ⟨h3, h4⟩ | ⟨he, h3⟩
    · obtain ⟨es, s', e1, e2, e3⟩ := ih h3 (by omega)
      refine ⟨e :: es, s', ?_, by simp [Loop.run, h1, e2], e3⟩
      intro x hx
      rcases List.mem_cons.1 hx with rfl | hx
      · exact hn
      · exact e1 x hx
    · exact ⟨[e], s1, by simpa using hn, hr, ends_over h hj h3⟩

/-- A write can be executed. -/
theorem returns {dev : Device D} {s : Loop D} {tag : UInt8} {ops : List FileOp} (h : Idle s)
    (hv : ∀ op ∈ ops, op.Valid) (hl : (requestBytes tag ops).length ≤ 255)
    (ha : (answer tag (dev.results s.data ops)).length ≤ 255) :
    ∃ s', Returned dev s (request tag ops) (.ok [answered tag (dev.results s.data ops)]) s' ∧ Idle s' := by
  obtain ⟨hs, hw⟩ := (execute_step h .app dev (tag := tag) (timeout := 10) hv (by decide)).1 hl
  obtain ⟨es, s', e1, e2, e3⟩ := completes (j := ⟨.app, tag, ops, s⟩) rfl ha _ hs (Nat.le_refl _)
  refine ⟨s', ⟨es, _, e1, ?_, e3.outcomes, ?_⟩, e3.idle⟩
  · show (s.step dev _).bind _ = _
    simp only [Loop.step, State.step]
    rw [if_pos h.main]
    exact e2
  · simp only [content, e3.responses]
    simp

/-! ### The program -/

theorem piece_fits (tag file : UInt8) (offset : Nat) {data : List UInt8} (hd : data.length ≤ 239) :
    (requestBytes tag [.write file offset data]).length ≤ 255 := by
  have h1 : (encode offset).length ≤ 4 := by
    unfold encode
    split_ifs <;> simp only [List.length_cons, List.length_nil] <;> omega
  have h2 : (encode data.length).length ≤ 2 := by
    unfold encode
    split_ifs <;> simp only [List.length_cons, List.length_nil] <;> omega
  simp only [requestBytes, FileOp.bytes, List.map_cons, List.map_nil, List.flatten_cons, List.flatten_nil,
    List.length_append, List.length_cons, List.length_nil]
  omega

theorem piece_valid {file : UInt8} {offset : Nat} {data : List UInt8} (ho : offset < 2 ^ 30) (hne : data ≠ [])
    (hd : data.length ≤ 239) : ∀ op ∈ [FileOp.write file offset data], op.Valid := by
  intro op hop
  rw [List.mem_singleton] at hop
  subst hop
  exact ⟨ho, hne, by omega⟩

theorem chunk_request (tag : UInt8) {offset : Nat} {data : List UInt8} (ho : offset < 2 ^ 30) (hd : data.length ≤ 239) :
    Update.chunkCommand tag offset data = .ok (request tag [.write 200 offset data]) :=
  (C75_factory tag 200 offset 0 data ho (by decide) (by omega)).2

theorem chunk_beyond (tag : UInt8) {offset : Nat} (data : List UInt8) (ho : ¬ offset < 2 ^ 30) :
    Update.chunkCommand tag offset data = .error .valueError := by
  have : Length.new (offset : Int) = .error .valueError := if_neg (by omega)
  simp only [Update.chunkCommand, this, bind, Except.bind]

theorem first_request (tag : UInt8) :
    Command.createWithWriteFileAction tag 199 [0] 0 .HOST none = .ok (request tag [.write 199 0 [0]]) :=
  (C75_factory tag 199 0 0 [0] (by decide) (by decide) (by decide)).2

/-- The content of the device after the rest of the file, `rest`, has been written from offset `l`. -/
def Filled (l : Nat) (rest : List UInt8) (d d' : UInt8 → Nat → UInt8) : Prop :=
  (∀ i, l ≤ i → i < l + rest.length → i < 1073741916 → some (d' 200 i) = rest[i - l]?) ∧
  ∀ f i, (f = 200 → ¬ (l ≤ i ∧ i < l + rest.length ∧ i < 1073741916)) → d' f i = d f i

theorem loop_device {s s' : Loop (UInt8 → Nat → UInt8)} (rand : Nat → UInt8) (exec : Update.Exec) (n l : Nat)
    (rest : List UInt8) (k : Nat) (hl : l = 239 * k) (h : Idle s)
    (he : Executed memory exec n (Update.loop rand exec n l rest).1 s s') :
    (Update.loop rand exec n l rest).2 =
      (if rest = [] ∨ l + rest.length ≤ 1073741916 then .done else .raised .valueError) ∧
    Filled l rest s.data s'.data := by
  obtain ⟨m, hm⟩ : ∃ m, rest.length = m := ⟨_, rfl⟩
  induction m using Nat.strong_induction_on generalizing s n l rest k with
  | _ m ih =>
  rw [Update.loop] at he ⊢
  by_cases hne : rest = []
  · subst hne
    rw [dif_pos rfl] at he ⊢
    cases he
    exact ⟨by simp, fun i h1 h2 => absurd h2 (by simp; omega), fun _ _ _ => rfl⟩
  rw [dif_neg hne] at he ⊢
  have hpos := List.length_pos_iff.2 hne
  by_cases ho : l < 2 ^ 30
  · have hq : (rest.take 239).length ≤ 239 := by simp
    rw [chunk_request (rand n) ho hq] at he ⊢
    simp only at he ⊢
    have hv := piece_valid (file := 200) ho (by simp [hne]) hq
    have hf := piece_fits (rand n) 200 l hq
    have key : ∀ {cs : List Command}, Executed memory exec n (request (rand n) [.write 200 l (rest.take 239)] :: cs) s s' →
        exec n (request (rand n) [.write 200 l (rest.take 239)]) = .ok [answered (rand n) []] ∧
        ∃ s1, s1.data = memory.write s.data 200 l (rest.take 239) ∧ Idle s1 ∧ Executed memory exec (n + 1) cs s1 s' := by
      intro cs hx
      cases hx with
      | cons _ _ _ _ s1 _ h1 h2 =>
        obtain ⟨e1, e2, e3⟩ := returned h hv hf h1
        exact ⟨e1, s1, e2, e3, h2⟩
    have hex : exec n (request (rand n) [.write 200 l (rest.take 239)]) = .ok [answered (rand n) []] := by
      split at he
      · exact (key he).1
      · split at he
        · exact (key he).1
        · exact (key he).1
        · exact (key he).1
    have hw : Update.worked [answered (rand n) []] = .ok true := rfl
    simp only [hex, hw] at he ⊢
    obtain ⟨-, s1, e2, e3, e4⟩ := key he
    obtain ⟨i1, i2, i3⟩ := ih (rest.drop 239).length (by simp only [List.length_drop]; omega) (n + 1) (l + 239)
      (rest.drop 239) (k + 1) (by omega) e3 e4 rfl
    have hk : k ≤ 4492643 := by omega
    refine ⟨?_, ?_, ?_⟩
    · rw [i1]
      by_cases h1 : l + rest.length ≤ 1073741916
      · rw [if_pos (c := rest = [] ∨ _) (.inr h1), if_pos]
        by_cases h2 : rest.length ≤ 239
        · exact .inl (List.drop_eq_nil_of_le h2)
        · right; simp only [List.length_drop]; omega
      · rw [if_neg, if_neg]
        · rintro (h2 | h2)
          · exact hne h2
          · exact h1 h2
        · rintro (h2 | h2)
          · have := List.drop_eq_nil_iff.1 h2; omega
          · simp only [List.length_drop] at h2; omega
    · intro i h1 h2 h3
      by_cases h4 : i < l + 239
      · rw [i3 200 i (by rintro - ⟨h5, -⟩; omega), e2]
        have hlt : i - l < (rest.take 239).length := by simp; omega
        simp only [memory]
        rw [if_pos ⟨trivial, h1, by omega⟩, List.getElem?_eq_getElem hlt]
        simp only [Option.getD_some, List.getElem_take]
        rw [List.getElem?_eq_getElem]
      · rw [i2 i (by omega) (by simp only [List.length_drop]; omega) h3, List.getElem?_drop]
        rw [show 239 + (i - (l + 239)) = i - l by omega]
    · intro f i h1
      rw [i3 f i (fun hf' ⟨h5, h6, h7⟩ => h1 hf' ⟨by omega, by simp only [List.length_drop] at h6; omega, h7⟩), e2]
      simp only [memory]
      rw [if_neg]
      rintro ⟨rfl, h5, h6⟩
      simp only [List.length_take] at h6
      exact h1 rfl ⟨h5, by omega, by omega⟩
  · rw [chunk_beyond _ _ ho] at he ⊢
    simp only at he ⊢
    cases he
    refine ⟨?_, fun i h1 h2 h3 => by omega, fun _ _ _ => rfl⟩
    rw [if_neg]
    rintro (h2 | h2)
    · exact hne h2
    · omega

/-- What the calls return. -/
def confirming (rand : Nat → UInt8) : Update.Exec := fun n _ => .ok [answered (rand n) []]

theorem loop_runs (rand : Nat → UInt8) (n l : Nat) (rest : List UInt8) {s : Loop (UInt8 → Nat → UInt8)} (h : Idle s) :
    ∃ s', Executed memory (confirming rand) n (Update.loop rand (confirming rand) n l rest).1 s s' := by
  induction hm : rest.length using Nat.strong_induction_on generalizing s n l rest with
  | _ m ih =>
  rw [Update.loop]
  by_cases hne : rest = []
  · rw [dif_pos hne]; exact ⟨s, .nil _ _⟩
  rw [dif_neg hne]
  have hpos := List.length_pos_iff.2 hne
  by_cases ho : l < 2 ^ 30
  · have hq : (rest.take 239).length ≤ 239 := by simp
    rw [chunk_request (rand n) ho hq]
    have hw : Update.worked [answered (rand n) []] = .ok true := rfl
    simp only [confirming, hw]
    obtain ⟨s1, h1, h2⟩ := returns (dev := memory) h (piece_valid (file := 200) ho (by simp [hne]) hq)
      (piece_fits (rand n) 200 l hq) (by show (2 : Nat) ≤ 255; decide)
    obtain ⟨s', h3⟩ := ih (rest.drop 239).length (by simp only [List.length_drop]; omega) (n + 1) (l + 239)
      (rest.drop 239) h2 rfl
    exact ⟨s', .cons _ _ _ _ s1 _ h1 h3⟩
  · rw [chunk_beyond _ _ ho]; exact ⟨s, .nil _ _⟩

end Upd

end Verif.Modem
