import Verif.Spec.FileProgram
import Verif.Lemmas.UpdateLate

/-! Helper lemmas: what a device holds after the commands of a program that reads and writes files. -/

namespace Verif.Modem.Fp

open Verif Verif.Serial

variable {D : Type}

theorem confirmed_iff {rs : List Command} : confirmed (.ok rs) = true ↔ ∃ x ∈ rs, Clean x := by
  simp [confirmed, Clean]

theorem not_confirmed {rs : List Command} (h : ∀ r ∈ rs, ¬ Clean r) : confirmed (.ok rs) = false := by
  rw [← Bool.not_eq_true, confirmed_iff]
  rintro ⟨x, hx, hc⟩
  exact h x hx hc

theorem confirmed_answered (tag : UInt8) (l : List (UInt8 × Nat × List UInt8)) :
    confirmed (.ok [answered tag l]) = true := by
  simp [confirmed, answered]

theorem ops_append (exec : Update.Exec) (p q : List (UInt8 × List FileOp)) : ∀ n,
    confirmedOps exec n (p ++ q) = confirmedOps exec n p ++ confirmedOps exec (n + p.length) q := by
  induction p with
  | nil => intro n; simp [confirmedOps]
  | cons x p ih =>
    intro n
    simp only [List.cons_append, confirmedOps, ih, List.append_assoc, List.length_cons]
    rw [show n + 1 + p.length = n + (p.length + 1) by omega]

theorem ops_mem (exec : Update.Exec) (p : List (UInt8 × List FileOp)) : ∀ n, ∀ op ∈ confirmedOps exec n p,
    ∃ x ∈ p, op ∈ x.2 := by
  induction p with
  | nil => intro n op h; simp [confirmedOps] at h
  | cons x p ih =>
    intro n op h
    rcases List.mem_append.1 h with h | h
    · split at h
      · exact ⟨x, by simp, h⟩
      · cases h
    · obtain ⟨y, h1, h2⟩ := ih _ op h
      exact ⟨y, by simp [h1], h2⟩

/-- What is sent. -/
theorem payloads {prog : List (UInt8 × List FileOp)} (hfit : ∀ x ∈ prog, (∀ op ∈ x.2, op.Valid) ∧
    (requestBytes x.1 x.2).length ≤ 255) :
    (fileCommands prog).filterMap sendable = prog.map fun x => requestBytes x.1 x.2 := by
  induction prog with
  | nil => rfl
  | cons x prog ih =>
    have h := hfit x (by simp)
    simp only [fileCommands, List.map_cons, List.filterMap_cons, Upl.request_sendable h.1 h.2]
    exact congrArg _ (ih fun y hy => hfit y (by simp [hy]))

theorem after_ops {dev : Device D} (d : D) (a b : List FileOp) : dev.after d (a ++ b) = dev.after (dev.after d a) b := by
  simp [Device.after]

/-- The question of `connect` changes nothing. -/
theorem files_connect {g : Gateway D} (hg : g.Conforms) {files : D → UInt8 → Nat → UInt8} (hkeep : g.Keeps files)
    (d : D) (r : UInt8) : files (g.handle d (connectBytes r)).1 = files d := by
  have hv : ∀ op ∈ identification, op.Valid := by
    intro op hop
    simp only [identification, List.mem_cons, List.not_mem_nil, or_false] at hop
    rcases hop with rfl | rfl <;> exact ⟨by decide, by decide⟩
  have hb : connectBytes r = requestBytes r identification := rfl
  rw [hb]
  obtain ⟨rs, h⟩ := hg d (request r identification) (requestBytes r identification) r.toNat rfl rfl rfl
    (Upl.request_sendable hv (by rw [← hb]; simp [connectBytes]))
  rcases hkeep d r identification rs hv h with ⟨-, h⟩ | ⟨-, h⟩
  · exact h
  · exact h

/-- What the device holds after the first `i` commands. -/
theorem files_after {g : Gateway D} (hg : g.Conforms) {files : D → UInt8 → Nat → UInt8} (hkeep : g.Keeps files)
    {d : D} {r : UInt8} {exec : Update.Exec} {prog : List (UInt8 × List FileOp)}
    (hfit : ∀ x ∈ prog, (∀ op ∈ x.2, op.Valid) ∧ (requestBytes x.1 x.2).length ≤ 255) :
    ∀ i ≤ prog.length, (∀ j (hj : j < prog.length), j < i → ∃ rs, exec j (request prog[j].1 prog[j].2) = .ok rs ∧
      g.Reply d (connectBytes r :: (prog.take j).map fun x => requestBytes x.1 x.2) prog[j].1.toNat
        (requestBytes prog[j].1 prog[j].2) rs) →
    files (g.replies d (connectBytes r :: (prog.take i).map fun x => requestBytes x.1 x.2)).1 =
      memory.after (files d) (confirmedOps exec 0 (prog.take i)) := by
  intro i
  induction i with
  | zero =>
    intro _ _
    simp only [List.take_zero, List.map_nil, confirmedOps]
    exact files_connect hg hkeep d r
  | succ i ih =>
    intro hi h
    have hi' : i < prog.length := hi
    have ih := ih (by omega) fun j hj hji => h j hj (by omega)
    obtain ⟨rs, h1, h2⟩ := h i hi' (by omega)
    rw [List.take_succ_eq_append_getElem hi', List.map_append, ← List.cons_append, List.map_singleton, Gwa.replies_snoc,
      ops_append, after_ops, ← ih, List.length_take_of_le (Nat.le_of_lt hi'), Nat.zero_add]
    simp only [confirmedOps, List.append_nil, h1]
    rcases hkeep _ _ _ rs (hfit _ (List.getElem_mem hi')).1 h2 with ⟨rfl, k⟩ | ⟨k1, k⟩
    · rw [k, confirmed_answered]; rfl
    · rw [k, not_confirmed k1]; rfl

end Verif.Modem.Fp
