import Verif.Lemmas.CommandRun
import Verif.Lemmas.Layout
import Mathlib.Data.List.Forall2

/-! C22, C23: bytes of commands. -/

namespace Verif

/-! ## C22 -/

/-- The tag bytes in front of a command: none if no tag request is generated, otherwise the tag
request opcode (with the top bit when a response is wanted) and the tag, which has to be a byte. -/
def Command.tagBytes (c : Command) : Option (List UInt8) :=
  if c.generateTagRequestAction then
    match c.tagId with
    | some t => if 0 ≤ t ∧ t ≤ 255 then
        some [if c.sendTagResponseWhenCompleted then 0xB4 else 0x34, UInt8.ofNat t.toNat] else none
    | none => none
  else some []

private theorem tagGen_emits (c : Command) (tb : List UInt8) :
    Emits (if c.generateTagRequestAction then c.tagRequestGen else .nil) tb ↔
      c.tagBytes = some tb := by
  unfold Command.tagBytes Command.tagRequestGen
  cases hg : c.generateTagRequestAction with
  | false =>
    simp only [Bool.false_eq_true, if_false, Option.some.injEq]
    exact ⟨fun h => (h.unique Emits.nil).symm, fun h => h ▸ Emits.nil⟩
  | true =>
    simp only [if_true]
    cases ht : c.tagId with
    | none =>
      simp only [reduceCtorEq, iff_false]
      exact fun h => h.raise_inv
    | some t =>
      simp only
      by_cases hb : 0 ≤ t ∧ t ≤ 255
      · have hn : TagId.new t = .ok ⟨t⟩ := validate_of hb
        have key : Emits (Action.tagRequest c.sendTagResponseWhenCompleted (.tagRequest ⟨t⟩)).iter
            [if c.sendTagResponseWhenCompleted then 0xB4 else 0x34, UInt8.ofNat t.toNat] := by
          have h2 : Emits (TagId.iter ⟨t⟩) [UInt8.ofNat t.toNat] := Emits.int hb.1 hb.2
          have h1 : Emits (.int (Action.headerByte c.sendTagResponseWhenCompleted false 52))
              [if c.sendTagResponseWhenCompleted then 0xB4 else 0x34] := by
            unfold Emits
            cases c.sendTagResponseWhenCompleted <;> decide
          exact h1.append h2
        rw [hn, if_pos hb]
        simp only [Option.some.injEq]
        exact ⟨fun h => (h.unique key).symm, fun h => h ▸ key⟩
      · have hn : TagId.new t = .error .valueError := validate_eq_error.2 ⟨hb, rfl⟩
        rw [hn, if_neg hb]
        simp only [reduceCtorEq, iff_false]
        exact fun h => h.raise_inv

/-- C22: the bytes of a command are the tag bytes, the bytes of the interface status action, and
the bytes of the actions in order; and serialisation succeeds exactly when all these parts do. -/
theorem C22_bytes (c : Command) (bs : List UInt8) :
    bytearray c.iter = .ok bs ↔
      ∃ tb sb xs, c.tagBytes = some tb ∧
        (∀ a, c.interfaceStatus = some a → bytearray a.iter = .ok sb) ∧
        (c.interfaceStatus = none → sb = []) ∧
        List.Forall₂ (fun a x => bytearray (Action.iter a) = .ok x) c.actions xs ∧
        bs = tb ++ sb ++ xs.flatten := by
  have hF : ∀ xs, List.Forall₂ Emits (c.actions.map Action.iter) xs ↔
      List.Forall₂ (fun a x => bytearray (Action.iter a) = .ok x) c.actions xs := by
    intro xs
    rw [List.forall₂_map_left_iff]
    rfl
  constructor
  · intro h
    obtain ⟨p, x, hp, hx, rfl⟩ := Emits.append_inv (show Emits c.iter bs from h)
    obtain ⟨t, s, ht, hs, rfl⟩ := hp.append_inv
    obtain ⟨xs, hxs, rfl⟩ := hx.concat_inv
    refine ⟨t, s, xs, (tagGen_emits c t).1 ht, ?_, ?_, (hF xs).1 hxs, rfl⟩
    · intro a ha
      rw [ha] at hs
      exact hs
    · intro hn
      rw [hn] at hs
      exact hs.unique Emits.nil
  · rintro ⟨tb, sb, xs, h1, h2, h3, h4, rfl⟩
    refine Emits.append (Emits.append ((tagGen_emits c tb).2 h1) ?_) (Emits.concat ((hF xs).2 h4))
    cases hi : c.interfaceStatus with
    | none => rw [h3 hi]; exact Emits.nil
    | some a => exact h2 a hi

example : bytearray (Command.iter ⟨[.regular false false .nop], none, true, some 77, true, false,
    none⟩) = .ok [0xB4, 77, 0] := by decide

/-- C22: an automatically chosen tag is a byte, so `Command()` always serialises, to its two tag
bytes. -/
theorem C22_auto_tag (rand : UInt8) :
    ∃ c, Command.new [] true none true rand = .ok c ∧ c = Command.empty rand ∧
      bytearray c.iter = .ok [0xB4, rand] := by
  refine ⟨_, rfl, rfl, ?_⟩
  rw [C22_bytes]
  refine ⟨[0xB4, rand], [], [], ?_, by rintro a ⟨⟩, fun _ => rfl, .nil, by simp⟩
  have : rand.toNat < 256 := rand.toNat_lt
  have h : rand.toNat ≤ 255 := by omega
  simp [Command.tagBytes, h]

example : (Command.new [] true none true 7).toOption.map (fun c => bytearray c.iter) = some (.ok [0xB4, 7]) := by
  decide

/-- The calls that extend a command. -/
inductive AddCall
  | action (a : Action)
  | forward (t : InterfaceType) (cfg : Option IfaceConfig)
  | indirectForward (fileId : Int) (overload : Bool) (cfg : Option Addressee)

/-- Performs one call; a call that raises leaves the command as it was. -/
def AddCall.run (c : Command) : AddCall → Except PyErr Command
  | .action a => .ok (c.addAction a)
  | .forward t cfg => c.addForwardAction t cfg
  | .indirectForward i o cfg => c.addIndirectForwardAction i o cfg

theorem AddCall.run_appends (c c' : Command) (k : AddCall) (h : k.run c = .ok c') :
    ∃ as, c' = { c with actions := c.actions ++ as } := by
  cases k with
  | action a => cases h; exact ⟨[a], rfl⟩
  | forward t cfg =>
    change c.addForwardAction t cfg = _ at h
    unfold Command.addForwardAction at h
    split at h
    · cases h
    · cases t <;> simp only at h <;> injection h with h <;> subst h
      · exact ⟨[], by simp⟩
      all_goals exact ⟨[_], rfl⟩
  | indirectForward i o cfg =>
    change c.addIndirectForwardAction i o cfg = _ at h
    unfold Command.addIndirectForwardAction at h
    cases h1 : IndirectInterfaceOperand.new i (if o = true then cfg else none) with
    | error e => simp only [h1, bind, Except.bind] at h; cases h
    | ok x =>
      simp only [h1, bind, Except.bind, Action.newIndirectForward, pure, Except.pure] at h
      injection h with h
      subst h
      exact ⟨[_], rfl⟩

/-- C22: any sequence of add_* calls that do not raise only appends actions, and only appends to
the byte string; everything else about the command is unchanged. -/
theorem C22_add_only_appends (calls : List AddCall) (c c' : Command)
    (h : calls.foldlM AddCall.run c = .ok c') :
    (∃ as, c' = { c with actions := c.actions ++ as }) ∧
    ∀ bs', bytearray c'.iter = .ok bs' → ∃ bs, bytearray c.iter = .ok bs ∧ bs <+: bs' := by
  have key : ∃ as, c' = { c with actions := c.actions ++ as } := by
    induction calls generalizing c with
    | nil => cases h; exact ⟨[], by simp⟩
    | cons k ks ih =>
      rw [List.foldlM_cons] at h
      cases hk : k.run c with
      | error e => rw [hk] at h; cases h
      | ok c1 =>
        rw [hk] at h
        obtain ⟨as, rfl⟩ := AddCall.run_appends _ _ _ hk
        obtain ⟨as', rfl⟩ := ih _ h
        exact ⟨as ++ as', by simp⟩
  refine ⟨key, fun bs' hb => ?_⟩
  obtain ⟨as, rfl⟩ := key
  obtain ⟨tb, sb, xs, h1, h2, h3, h4, rfl⟩ := (C22_bytes _ _).1 hb
  simp only at h2 h3 h4
  obtain ⟨x1, x2, h5, h6, rfl⟩ : ∃ x1 x2, List.Forall₂
      (fun a x => bytearray (Action.iter a) = .ok x) c.actions x1 ∧
      List.Forall₂ (fun a x => bytearray (Action.iter a) = .ok x) as x2 ∧ xs = x1 ++ x2 := by
    refine ⟨xs.take c.actions.length, xs.drop c.actions.length, ?_, ?_, by simp⟩
    · have := List.forall₂_take c.actions.length h4
      simpa using this
    · have := List.forall₂_drop c.actions.length h4
      simpa using this
  refine ⟨tb ++ sb ++ x1.flatten, (C22_bytes _ _).2 ⟨tb, sb, x1, h1, h2, h3, h5, rfl⟩, ?_⟩
  exact ⟨x2.flatten, by simp⟩

example : ([AddCall.action (.regular false false .nop), .forward .SERIAL none].foldlM
    AddCall.run (Command.empty 5)).toOption.map (fun c => bytearray c.iter) = some (.ok [0xB4, 5, 0, 0x32, 1]) := by
  decide

/-- C22: what one added action appends. -/
theorem C22_add_action (c : Command) (a : Action) (bs x : List UInt8)
    (h : bytearray c.iter = .ok bs) (ha : bytearray a.iter = .ok x) :
    bytearray (c.addAction a).iter = .ok (bs ++ x) := by
  obtain ⟨tb, sb, xs, h1, h2, h3, h4, rfl⟩ := (C22_bytes _ _).1 h
  refine (C22_bytes _ _).2 ⟨tb, sb, xs ++ [x], h1, h2, h3, ?_, by simp⟩
  exact List.rel_append h4 (.cons ha .nil)

example : ∃ c', [AddCall.forward .SERIAL none, .action (.regular false false .nop)].foldlM
    AddCall.run (Command.empty 5) = .ok c' ∧ bytearray c'.iter = .ok [0xB4, 5, 0x32, 1, 0] :=
  ⟨_, rfl, by decide⟩

end Verif
