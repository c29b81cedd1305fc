import Verif.Lemmas.UpdateDevice

/-! C80: the update program (examples/write_update.py) with a modem and a device that keeps files. -/

namespace Verif.Modem

open Verif Verif.Serial

/-- C80: after any calls, in every interleaving of the threads and the device and for every way the bytes of the answers
are split, the program ends normally and the device then holds the whole file in file 200, from its start, and a zero at
the start of file 199; nothing else has changed. A file of more than 1073741916 bytes ends in ValueError after that
many bytes. -/
theorem C80_update {config : Config} (hk : config.skip = false) {d : UInt8 → Nat → UInt8} {before : List LoopEvent}
    {s s' : Loop (UInt8 → Nat → UInt8)} (hp : ∀ e ∈ before, Proper e)
    (h0 : (Loop.start config d).run memory before = some s) (hm : s.modem.main = .idle) (rand : Nat → UInt8)
    (exec : Update.Exec) (file : List UInt8)
    (he : Executed memory exec 0 (Update.update rand exec file).1 s s') :
    (Update.update rand exec file).2 = (if file.length ≤ 1073741916 then .done else .raised .valueError) ∧
    (∀ i, (hi : i < file.length) → i < 1073741916 → s'.data 200 i = file[i]) ∧
    s'.data 199 0 = 0 ∧
    ∀ f i, ¬ (f = 199 ∧ i = 0) → ¬ (f = 200 ∧ i < file.length ∧ i < 1073741916) → s'.data f i = s.data f i := by
  have hi := Upd.idle_of hk hp h0 hm
  unfold Update.update at he ⊢
  rw [Upd.first_request] at he ⊢
  simp only at he ⊢
  have key : ∀ {cs : List Command}, Executed memory exec 0 (request (rand 0) [.write 199 0 [0]] :: cs) s s' →
      exec 0 (request (rand 0) [.write 199 0 [0]]) = .ok [answered (rand 0) []] ∧
      ∃ s1, s1.data = memory.write s.data 199 0 [0] ∧ Idle s1 ∧ Executed memory exec 1 cs s1 s' := by
    intro cs hx
    cases hx with
    | cons _ _ _ _ s1 _ h1 h2 =>
      obtain ⟨e1, e2, e3⟩ := Upd.returned hi (Upd.piece_valid (by decide) (by decide) (by decide))
        (Upd.piece_fits (rand 0) 199 0 (by decide)) h1
      exact ⟨e1, s1, e2, e3, h2⟩
  have hex : exec 0 (request (rand 0) [.write 199 0 [0]]) = .ok [answered (rand 0) []] := by
    split at he
    · exact (key he).1
    · exact (key he).1
  simp only [hex] at he ⊢
  obtain ⟨-, s1, e2, e3, e4⟩ := key he
  obtain ⟨i1, i2, i3⟩ := Upd.loop_device rand exec 1 0 file 0 rfl e3 e4
  refine ⟨?_, fun i hi' h2 => ?_, ?_, fun f i h1 h2 => ?_⟩
  · rw [i1]
    by_cases h1 : file.length ≤ 1073741916
    · rw [if_pos (.inr (by omega)), if_pos h1]
    · rw [if_neg, if_neg h1]
      rintro (rfl | h2)
      · simp at h1
      · omega
  · have := i2 i (by omega) (by omega) h2
    rw [Nat.sub_zero, List.getElem?_eq_getElem hi'] at this
    exact Option.some.inj this
  · rw [i3 199 0 (fun h => absurd h (by decide)), e2]
    rfl
  · rw [i3 f i (fun hf h => h2 ⟨hf, by omega, h.2.2⟩), e2]
    simp only [memory]
    rw [if_neg]
    rintro ⟨rfl, -, h5⟩
    exact h1 ⟨rfl, by simpa using h5⟩

/-- The two calls of the program for a file of two bytes. -/
def updating : List LoopEvent :=
  [.call (.execute (request 7 [.write 199 0 [0]]) 10), .main, .main, .main, .main, .main, .device 5, .read 9] ++
    List.replicate 5 .reader ++ [.main] ++
  [.call (.execute (request 8 [.write 200 0 [5, 6]]) 10), .main, .main, .main, .main, .main, .device 6, .read 9] ++
    List.replicate 4 .reader ++ [.main]

example : ((Loop.start noCallbacks (fun _ _ => 9)).run memory updating).map (fun s =>
      (s.modem.outcomes, [s.data 199 0, s.data 199 1, s.data 200 0, s.data 200 1, s.data 200 2])) =
    some ([.list 1, .list 2], [0, 9, 5, 6, 9]) := by
  decide +kernel

/-- C80: the program can always be carried to its end: from every such state there is a run in which all its calls
return. -/
theorem C80_completes {config : Config} (hk : config.skip = false) {d : UInt8 → Nat → UInt8} {before : List LoopEvent}
    {s : Loop (UInt8 → Nat → UInt8)} (hp : ∀ e ∈ before, Proper e)
    (h0 : (Loop.start config d).run memory before = some s) (hm : s.modem.main = .idle) (rand : Nat → UInt8)
    (file : List UInt8) :
    ∃ exec s', Executed memory exec 0 (Update.update rand exec file).1 s s' := by
  have hi := Upd.idle_of hk hp h0 hm
  obtain ⟨s1, h1, h2⟩ := Upd.returns (dev := memory) hi
    (Upd.piece_valid (file := 199) (offset := 0) (data := [0]) (by decide) (by decide) (by decide))
    (Upd.piece_fits (rand 0) 199 0 (by decide)) (by show (2 : Nat) ≤ 255; decide)
  obtain ⟨s', h3⟩ := Upd.loop_runs rand 1 0 file h2
  refine ⟨Upd.confirming rand, s', ?_⟩
  unfold Update.update
  rw [Upd.first_request]
  exact .cons _ _ _ _ s1 _ h1 h3

example : ∃ exec s', Executed memory exec 0 (Update.update (fun _ => 7) exec (List.replicate 300 5)).1
      (Loop.start noCallbacks fun _ _ => 9) s' ∧ s'.data 200 299 = 5 ∧ s'.data 200 300 = 9 := by
  obtain ⟨exec, s', h⟩ := C80_completes (config := noCallbacks) (d := fun _ _ => 9) (before := []) rfl (by simp) rfl rfl
    (fun _ => 7) (List.replicate 300 5)
  obtain ⟨-, h1, -, h2⟩ := C80_update (config := noCallbacks) (d := fun _ _ => 9) (before := []) rfl (by simp) rfl rfl
    _ _ _ h
  refine ⟨exec, s', h, ?_, ?_⟩
  · rw [h1 299 (by rw [List.length_replicate]; decide) (by decide), List.getElem_replicate]
  · exact h2 200 300 (by decide) (by rw [List.length_replicate]; decide)

end Verif.Modem
