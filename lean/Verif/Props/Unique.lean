import Verif.Props.SerialFrames

/-! C94: different commands never have the same bytes. -/

namespace Verif.Serial

open Verif

/-- The same operations with the same operands and flag bits, in the same order, and the same tag request. -/
def SameCommand (c d : Command) : Prop :=
  c.actions.map (fun a => (a.operation, a.flags)) = d.actions.map (fun a => (a.operation, a.flags)) ∧
  (if c.generateTagRequestAction then c.tagId else none) = (if d.generateTagRequestAction then d.tagId else none) ∧
  (if c.generateTagRequestAction then c.sendTagResponseWhenCompleted else true) =
    (if d.generateTagRequestAction then d.sendTagResponseWhenCompleted else true)

theorem ArrivesAs.same {c c' d : Command} (h : ArrivesAs c d) (h' : ArrivesAs c' d) : SameCommand c c' :=
  ⟨h.1.symm.trans h'.1, h.2.2.1.symm.trans h'.2.2.1, h.2.2.2.symm.trans h'.2.2.2⟩

/-- C94: two commands that survive (C20) and have the same bytes are the same command. -/
theorem C94_command {c c' : Command} {bs : List UInt8}
    (hact : ∀ a ∈ c.actions, a.Built ∧ a.ComesBack ∧ ¬ a.operation.isTag)
    (htag : c.generateTagRequestAction = true → ∃ t, c.tagId = some t ∧ 0 ≤ t ∧ t ≤ 255) (hst : c.interfaceStatus = none)
    (hact' : ∀ a ∈ c'.actions, a.Built ∧ a.ComesBack ∧ ¬ a.operation.isTag)
    (htag' : c'.generateTagRequestAction = true → ∃ t, c'.tagId = some t ∧ 0 ≤ t ∧ t ≤ 255)
    (hst' : c'.interfaceStatus = none) (h : bytearray c.iter = .ok bs) (h' : bytearray c'.iter = .ok bs) :
    SameCommand c c' := by
  obtain ⟨b1, d1, e1, e2, e3, e4, e5, e6, -⟩ := C20_command_round_trip_partial c hact htag hst
  obtain ⟨b2, d2, k1, k2, k3, k4, k5, k6, -⟩ := C20_command_round_trip_partial c' hact' htag' hst'
  rw [h] at e1
  rw [h'] at k1
  cases e1
  cases k1
  have := (e2 []).symm.trans (k2 [])
  injection this with hd
  subst hd
  exact ArrivesAs.same ⟨e3, e4, e5, e6⟩ ⟨k3, k4, k5, k6⟩

/-- A command and the one with another tag; their bytes differ. -/
example : ∃ bs bs', bytearray sampleCommand.iter = .ok bs ∧
    bytearray { sampleCommand with tagId := some 78 }.iter = .ok bs' ∧ bs ≠ bs' :=
  ⟨_, _, rfl, rfl, by decide +kernel⟩

theorem forall_same {cs ds : List Command} (h : List.Forall₂ ArrivesAs cs ds) :
    ∀ {cs' : List Command}, List.Forall₂ ArrivesAs cs' ds → List.Forall₂ SameCommand cs cs' := by
  induction h with
  | nil => intro cs' h'; cases h'; exact .nil
  | cons h _ ih =>
    intro cs' h'
    cases h' with
    | cons h1 h2 => exact .cons (h.same h1) (ih h2)

/-- C94: two sequences of commands that survive, written to the line by any two builders, give the same bytes only if they
are the same: as many commands, and the same ones in the same order. -/
theorem C94_sequence {b b' q q' : Parser} (hb : 0 ≤ b.upCounter ∧ b.upCounter ≤ 255)
    (hb' : 0 ≤ b'.upCounter ∧ b'.upCounter ≤ 255) {cs cs' : List Command} (hcs : ∀ c ∈ cs, Transmittable c)
    (hcs' : ∀ c ∈ cs', Transmittable c) {fs fs' : List (List UInt8)}
    (h : buildAll b (cs.map Command.iter) = .ok (q, fs)) (h' : buildAll b' (cs'.map Command.iter) = .ok (q', fs'))
    (heq : fs.flatten = fs'.flatten) : List.Forall₂ SameCommand cs cs' := by
  obtain ⟨r, gs, e1, e2⟩ := C30_link b (Parser.new false) hb rfl rfl cs hcs
  obtain ⟨r', gs', k1, k2⟩ := C30_link b' (Parser.new false) hb' rfl rfl cs' hcs'
  rw [h] at e1
  rw [h'] at k1
  cases e1
  cases k1
  obtain ⟨x, ds, a1, a2, -⟩ := e2 [fs.flatten] (by simp) (by simp)
  obtain ⟨y, ds', c1, c2, -⟩ := k2 [fs.flatten] (by simp) (by simp [heq])
  rw [a1] at c1
  simp only [Except.ok.injEq, Prod.mk.injEq, and_true] at c1
  have hds : ds = ds' := (List.map_inj_right (fun u v huv => by simpa using huv)).1 c1.2
  subst hds
  exact forall_same a2 c2

/-- The same command once and twice: the bytes differ. -/
example {q q' : Parser} {fs fs' : List (List UInt8)}
    (h : buildAll (Parser.new false) ([sampleCommand].map Command.iter) = .ok (q, fs))
    (h' : buildAll (Parser.new false) ([sampleCommand, sampleCommand].map Command.iter) = .ok (q', fs')) :
    fs.flatten ≠ fs'.flatten := by
  intro heq
  have := C94_sequence (by decide) (by decide) (by simpa using sampleCommand_transmittable)
    (by simpa using sampleCommand_transmittable) h h' heq
  cases this with
  | cons _ h => cases h

end Verif.Serial
