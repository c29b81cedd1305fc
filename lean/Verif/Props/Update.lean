import Verif.Lemmas.Update

/-! C68: sending a file in pieces (examples/write_update.py). -/

namespace Verif.Update

private theorem first_ok (rand : UInt8) :
    ∃ c, Command.createWithWriteFileAction rand 199 [0] 0 .HOST none = .ok c ∧ Sends c rand 199 (0, [0]) := by
  obtain ⟨c, hc, hl⟩ := (C23_write_file_partial rand 199 [0] 0 .HOST none rfl (by decide)).1 (by decide)
  exact ⟨c, hc, by simpa [Sends, forwardFields, byteFields] using hl⟩

/-- A modem that confirms everything. -/
private def confirm : Exec := fun _ _ => .ok [⟨[], none, false, some 0, true, true, some false⟩]

/-- C68: whatever the modem answers, the first command writes a zero to file 199, each further one writes a piece
to file 200, and the pieces put together are the file from its start, without a gap: all of it if the
program ends normally. Whatever file 200 held before, it now starts with what has been sent. -/
theorem C68_image (rand : Nat → UInt8) (exec : Exec) (content : List UInt8) :
    ∃ first rest ws, (update rand exec content).1 = first :: rest ∧ Sends first (rand 0) 199 (0, [0]) ∧
      ws.length = rest.length ∧
      (∀ i c w, rest[i]? = some c → ws[i]? = some w → Sends c (rand (i + 1)) 200 w) ∧
      ∃ sent, sent <+: content ∧ (∀ old, image ws old = sent ++ old.drop sent.length) ∧
        ((update rand exec content).2 = .done → sent = content) := by
  obtain ⟨c, hc, hs⟩ := first_ok (rand 0)
  unfold update
  rw [hc]
  cases he : exec 0 c with
  | error e =>
    exact ⟨c, [], [], by simp [he], hs, rfl, by simp, [], List.nil_prefix, fun old => by simp [image],
      by simp [he]⟩
  | ok answ =>
    simp only [he]
    obtain ⟨i1, i2, -, -, i5⟩ := loop_sends rand exec 1 0 content
    generalize loop rand exec 1 0 content = r at i1 i2 i5 ⊢
    refine ⟨c, r.1, pieces 0 content r.1.length, rfl, hs, pieces_length _ _ _, fun i c w h1 h2 => ?_,
      content.take (239 * r.1.length), List.take_prefix _ _, fun old => ?_, fun h => ?_⟩
    · rw [Nat.add_comm]; exact (i1 i c w h1 h2).1
    · rw [image_pieces 0 content old _ (by omega) i5]
      simp
    · exact List.take_of_length_le (i2 h)

/-- 300 bytes are sent in two pieces. -/
example : (update (fun _ => 7) confirm (List.replicate 300 1)).1.length = 3 ∧
    (update (fun _ => 7) confirm (List.replicate 300 1)).2 = .done := by decide +kernel

/-- C68: every command but the first two is only sent after the modem has confirmed the one before, and at a
normal end all of them are confirmed. -/
theorem C68_confirmed (rand : Nat → UInt8) (exec : Exec) (content : List UInt8) (i : Nat) (c : Command)
    (hi : 0 < i) (hc : (update rand exec content).1[i]? = some c)
    (h : i + 1 < (update rand exec content).1.length ∨ (update rand exec content).2 = .done) :
    ∃ answers, exec i c = .ok answers ∧ Confirmed answers := by
  obtain ⟨c0, hc0, -⟩ := first_ok (rand 0)
  unfold update at hc h
  rw [hc0] at hc h
  obtain ⟨i, rfl⟩ : ∃ j, i = j + 1 := ⟨i - 1, by omega⟩
  cases he : exec 0 c0 with
  | error e => simp [he] at hc
  | ok answ =>
    simp only [he] at hc h
    obtain ⟨-, -, i3, -, -⟩ := loop_sends rand exec 1 0 content
    have := i3 i c (by simpa using hc) (by simpa using h)
    rwa [Nat.add_comm] at this

/-- The second of three commands. -/
example : ((update (fun _ => 7) confirm (List.replicate 300 1)).1[1]?).isSome = true ∧
    1 + 1 < (update (fun _ => 7) confirm (List.replicate 300 1)).1.length := by decide +kernel

/-- C68: "write failed" is only said if the modem has not confirmed the last command. -/
theorem C68_failed (rand : Nat → UInt8) (exec : Exec) (content : List UInt8)
    (h : (update rand exec content).2 = .failed) :
    ∃ c answers, (update rand exec content).1.getLast? = some c ∧
      exec ((update rand exec content).1.length - 1) c = .ok answers ∧ ¬ Confirmed answers := by
  obtain ⟨c0, hc0, -⟩ := first_ok (rand 0)
  unfold update at h ⊢
  rw [hc0] at h ⊢
  cases he : exec 0 c0 with
  | error e => simp [he] at h
  | ok answ =>
    simp only [he] at h ⊢
    obtain ⟨-, -, -, i4, -⟩ := loop_sends rand exec 1 0 content
    obtain ⟨c, a, x1, x2, x3⟩ := i4 h
    refine ⟨c, a, ?_, ?_, x3⟩
    · cases hr : (loop rand exec 1 0 content).1 with
      | nil => rw [hr] at x1; cases x1
      | cons y ys => rw [hr] at x1; simpa using x1
    · simpa [Nat.add_comm] using x2

/-- A modem that answers nothing. -/
example : (update (fun _ => 7) (fun _ _ => .ok []) (List.replicate 300 1)).1.length = 2 ∧
    (update (fun _ => 7) (fun _ _ => .ok []) (List.replicate 300 1)).2 = .failed := by decide +kernel

/-- C68: if every command is confirmed, the whole file is sent, provided it is no longer than 1073741916 bytes;
a longer one ends in ValueError (an offset beyond 30 bits). A completed answer always has the error flag, see
`C61_command`. -/
theorem C68_outcome_partial (rand : Nat → UInt8) (exec : Exec) (content : List UInt8)
    (h : ∀ i c, ∃ answers, exec i c = .ok answers ∧ Confirmed answers ∧
      ∀ a ∈ answers, a.executionCompleted = true → a.completedWithError ≠ none) :
    (update rand exec content).2 =
      if content.length ≤ 1073741916 then .done else .raised .valueError := by
  obtain ⟨c0, hc0, -⟩ := first_ok (rand 0)
  unfold update
  rw [hc0]
  obtain ⟨a, ha, -⟩ := h 0 c0
  simp only [ha]
  rw [loop_outcome rand exec 1 0 content (fun i c => by
    obtain ⟨a, h1, h2, h3⟩ := h (1 + i) c
    exact ⟨a, h1, worked_confirmed h3 h2⟩) 0 rfl]
  by_cases hl : content.length ≤ 1073741916
  · rw [if_pos (.inr (by omega)), if_pos hl]
  · rw [if_neg, if_neg hl]
    rintro (rfl | h)
    · simp at hl
    · omega

example : ∀ i c, ∃ answers, confirm i c = .ok answers ∧ Confirmed answers ∧
    ∀ a ∈ answers, a.executionCompleted = true → a.completedWithError ≠ none :=
  fun _ _ => ⟨_, rfl, ⟨_, List.mem_singleton.2 rfl, rfl, rfl⟩, by simp⟩

private theorem sends_size {c : Command} {tag : UInt8} {file : Nat} {w : Nat × List UInt8}
    (h : Sends c tag file w) : ∃ bs, bytearray c.iter = .ok bs ∧ bs.length ≤ w.2.length + 12 := by
  obtain ⟨bs, e, l, -⟩ := h
  refine ⟨bs, e, ?_⟩
  have hl := congrArg List.length l
  have hf : ∀ n : Length, (fieldBits n.fields).length ≤ 32 := by
    intro n
    unfold Length.fields
    repeat' split
    all_goals simp [fieldBits]
  have hm : ∀ l : List UInt8, (fieldBits (l.map fun b => (8, b.toNat))).length = 8 * l.length := by
    intro l
    induction l with
    | nil => rfl
    | cons b l ih => rw [List.map_cons, fieldBits_cons, List.length_append, ih]; simp; omega
  have h1 := hf ⟨w.1⟩
  have h2 := hf ⟨w.2.length⟩
  simp only [fieldBits_append, List.length_append, hm, bytesToBits_length] at hl
  have h3 : (fieldBits (tagFields tag.toNat)).length = 16 := by simp [tagFields, fieldBits]
  have h4 : (fieldBits [(8, 0x04), (8, file)]).length = 16 := by simp [fieldBits]
  omega

/-- C68: every command fits into a serial frame, whatever the size of the file. -/
theorem C68_frame (rand : Nat → UInt8) (exec : Exec) (content : List UInt8) (c : Command)
    (h : c ∈ (update rand exec content).1) : ∃ bs, bytearray c.iter = .ok bs ∧ bs.length ≤ 255 := by
  obtain ⟨c0, hc0, hs⟩ := first_ok (rand 0)
  have h0 : ∃ bs, bytearray c0.iter = .ok bs ∧ bs.length ≤ 255 := by
    obtain ⟨bs, e, l⟩ := sends_size hs
    exact ⟨bs, e, by simp at l; omega⟩
  unfold update at h
  rw [hc0] at h
  cases he : exec 0 c0 with
  | error e =>
    simp only [he, List.mem_singleton] at h
    subst h
    exact h0
  | ok answ =>
    simp only [he, List.mem_cons] at h
    rcases h with rfl | h
    · exact h0
    · obtain ⟨i1, -, -, -, -⟩ := loop_sends rand exec 1 0 content
      obtain ⟨i, hi, rfl⟩ := List.getElem_of_mem h
      obtain ⟨h1, -, h3, -⟩ := i1 i _ _ (List.getElem?_eq_getElem hi)
        (List.getElem?_eq_getElem (by rw [pieces_length]; exact hi))
      obtain ⟨bs, e, l⟩ := sends_size h1
      exact ⟨bs, e, by omega⟩

/-- A full piece of 239 bytes and one of 61. -/
example : (update (fun _ => 7) confirm (List.replicate 300 1)).1.map
    (fun c => (bytearray c.iter).toOption.map List.length) = [some 7, some 246, some 68] := by decide +kernel

/-- C68: the progress shown at the end is never less than 100 %, and exactly 100 % only if the last piece is
almost full. -/
theorem C68_progress (content : List UInt8) (hc : content ≠ []) (rand : Nat → UInt8) (exec : Exec)
    (h : (update rand exec content).2 = .done) :
    100 ≤ progress ((update rand exec content).1.length - 1) content.length ∧
    (progress ((update rand exec content).1.length - 1) content.length = 100 ↔
      100 * (239 * ((update rand exec content).1.length - 1) - content.length) < content.length) := by
  obtain ⟨c0, hc0, -⟩ := first_ok (rand 0)
  have hp := List.length_pos_iff.2 hc
  have hx : content.length ≤ 239 * ((update rand exec content).1.length - 1) := by
    unfold update at h ⊢
    rw [hc0] at h ⊢
    cases he : exec 0 c0 with
    | error e => simp [he] at h
    | ok answ =>
      simp only [he] at h ⊢
      have := (loop_sends rand exec 1 0 content).2.1 h
      simpa using this
  generalize (update rand exec content).1.length - 1 = k at hx ⊢
  unfold progress
  rw [Nat.le_div_iff_mul_le hp, Nat.div_eq_iff hp]
  omega

/-- 2 pieces of a file of 240 bytes: the program announces 199 percent. -/
example : progress 2 240 = 199 ∧ progress 1 239 = 100 := by decide

/-- C68: a file of one byte ends at 23900 %. -/
theorem C68_progress_refuted : progress 1 1 = 23900 := rfl

end Verif.Update
