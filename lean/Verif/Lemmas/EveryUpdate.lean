import Verif.Lemmas.Every
import Verif.Lemmas.UpdateLate

/-! Helper lemmas: the commands of the update program. -/

namespace Verif.Modem.Ev

open Verif Verif.Serial

/-- All commands of the loop fit in a frame and have a tag; it ends at the first call that returns nothing. -/
theorem loop_commands (rand : Nat → UInt8) (exec : Update.Exec) (m : Nat) :
    ∀ (n off : Nat) (content : List UInt8), content.length = m →
      (∀ c ∈ (Update.loop rand exec n off content).1, ∃ tag bs, Taggable c tag ∧ sendable c = some bs) ∧
      ∀ pre c post, (Update.loop rand exec n off content).1 = pre ++ c :: post → post ≠ [] →
        exec (n + pre.length) c ≠ .ok [] := by
  induction m using Nat.strong_induction_on with
  | _ m ih =>
  intro n off content hm
  rw [Update.loop]
  by_cases hne : content = []
  · rw [dif_pos hne]
    exact ⟨by simp, by simp⟩
  rw [dif_neg hne]
  by_cases ho : off < 2 ^ 30
  swap
  · rw [Upd.chunk_beyond _ _ ho]
    exact ⟨by simp, by simp⟩
  have hl : (content.take 239).length ≤ 239 := by simp
  rw [Upd.chunk_request (rand n) ho hl]
  simp only
  have hv := Upd.piece_valid (file := 200) ho (by simp only [ne_eq, List.take_eq_nil_iff, hne]; decide) hl
  have hfit := Upd.piece_fits (rand n) 200 off hl
  have hsend : ∃ tag bs, Taggable (request (rand n) [.write 200 off (content.take 239)]) tag ∧
      sendable (request (rand n) [.write 200 off (content.take 239)]) = some bs :=
    ⟨_, _, Upl.request_taggable _ _, Upl.request_sendable hv hfit⟩
  have single : ∀ (c : Command) (pre : List Command) (x : Command) (post : List Command),
      [c] = pre ++ x :: post → post = [] := by
    intro c pre x post h
    have := congrArg List.length h
    simp only [List.length_append, List.length_cons, List.length_nil] at this
    exact List.length_eq_zero_iff.1 (by omega)
  split
  · exact ⟨by simpa using hsend, fun pre x post h hp => absurd (single _ _ _ _ h) hp⟩
  · next rs hex =>
    split
    · exact ⟨by simpa using hsend, fun pre x post h hp => absurd (single _ _ _ _ h) hp⟩
    · exact ⟨by simpa using hsend, fun pre x post h hp => absurd (single _ _ _ _ h) hp⟩
    · next hw =>
      have hpos := List.length_pos_iff.2 hne
      obtain ⟨i1, i2⟩ := ih (content.drop 239).length (by simp only [List.length_drop]; omega) (n + 1) (off + 239)
        (content.drop 239) rfl
      constructor
      · intro c hc
        rcases List.mem_cons.1 hc with rfl | hc
        · exact hsend
        · exact i1 c hc
      · intro pre c post h hpost
        cases pre with
        | nil =>
          obtain ⟨rfl, -⟩ := List.cons.inj h
          intro he
          rw [List.length_nil, Nat.add_zero, hex] at he
          cases he
          cases hw
        | cons y pre =>
          obtain ⟨-, h⟩ := List.cons.inj h
          have := i2 pre c post h hpost
          simpa [Nat.add_assoc, Nat.add_comm 1] using this

end Verif.Modem.Ev
