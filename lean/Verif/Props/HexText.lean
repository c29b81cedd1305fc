import Verif.Lemmas.HexText
import Verif.Props.HexTool

/-! C92: the hexadecimal text that the library writes, given to tools/parse_hexstring.py. -/

namespace Verif.HexText

open Verif Verif.HexTool Verif.Serial

/-- C92: the texts stand for the bytes they were made from: a log line after `"> "`, the bytes of a parser error, and the
output of `hexlify`. -/
theorem C92_spells (bs : List UInt8) :
    sentLine bs = "> ".toList ++ (sentLine bs).drop 2 ∧ Spells ((sentLine bs).drop 2) bs ∧
      Spells (errorBuffer bs) bs ∧ Spells (hexlify bs) bs :=
  ⟨rfl, written_spells (written_joined bs), written_spells (written_joined bs), written_spells (written_hexlify bs)⟩

/-- Four bytes. -/
example : sentLine [0xC0, 0, 0x1F, 9] = "> c0 00 1f 09".toList ∧ errorBuffer [0xC0, 0, 0x1F, 9] = "c0 00 1f 09".toList ∧
    hexlify [0xC0, 0, 0x1F, 9] = "c0001f09".toList := by decide

/-- C92: different frames give different lines. -/
theorem C92_line_unique {f g : List UInt8} (h : sentLine f = sentLine g) : f = g := by
  have h1 := (C92_spells f).2.1
  rw [h] at h1
  exact C60_unique h1 (C92_spells g).2.1

example : sentLine [0x11] ≠ sentLine [1, 1] := by decide

/-- The commands of a Forall₂ between commands and frames. -/
theorem delivered_commands {cs : List Command} {fs : List Sent} (hv : ∀ f ∈ fs, f.Valid false ∧ f.type = 1)
    (h : List.Forall₂ (fun c f => ∃ d, f.msg = .command d ∧ ArrivesAs c d) cs fs) :
    ∃ ds : List Command, fs.map Sent.delivered = ds.map (fun d => (1, .command d)) ∧ List.Forall₂ ArrivesAs cs ds := by
  induction h with
  | nil => exact ⟨[], rfl, .nil⟩
  | @cons c f cs fs hd _ ih =>
    obtain ⟨d, e1, e2⟩ := hd
    obtain ⟨ds, i1, i2⟩ := ih (fun g hg => hv g (by simp [hg]))
    refine ⟨d :: ds, ?_, .cons e2 i2⟩
    have ht := (hv f (by simp)).2
    simp only [List.map_cons, i1, Sent.delivered, ht, e1]
    rfl

/-- C92: the log lines of any number of commands written one after the other, without their `"> "` and with any number of
spaces between them, make the tool show exactly these commands, in order and without an error. -/
theorem C92_session (b : Parser) (hb : 0 ≤ b.upCounter ∧ b.upCounter ≤ 255) (cs : List Command)
    (hcs : ∀ c ∈ cs, Transmittable c) {sep : List Char} (hsep : ∀ c ∈ sep, c = ' ') (id : Option Int) :
    ∃ b' frames o ds, buildAll b (cs.map Command.iter) = .ok (b', frames) ∧
      main .serial id (sep.intercalate ((frames.map sentLine).map (List.drop 2))) = .ok (.messages o) ∧
      o.cmds = ds.map (fun d => (1, .command d)) ∧ List.Forall₂ ArrivesAs cs ds ∧ o.errors = [] := by
  obtain ⟨b', fs, h1, h2, h3, -⟩ := buildAll_frames cs b hb hcs
  obtain ⟨ds, e1, e2⟩ := delivered_commands h2 h3
  have hs : Spells (sep.intercalate (((fs.map Sent.bytes).map sentLine).map (List.drop 2)))
      (fs.map Sent.bytes).flatten := by
    have := written_spells (written_intercalate hsep (fs.map Sent.bytes))
    rwa [show ((fs.map Sent.bytes).map sentLine).map (List.drop 2) = (fs.map Sent.bytes).map joined by
      rw [List.map_map]; rfl]
  obtain ⟨o, k1, k2, k3⟩ := C60_serial fs (fun f hf => (h2 f hf).1) hs id
  exact ⟨b', fs.map Sent.bytes, o, ds, h1, k1, by rw [k2, e1], e2, k3⟩

/-- The same command twice. -/
example : ∃ b' frames o ds, buildAll (Parser.new false) ([sampleCommand, sampleCommand].map Command.iter) = .ok (b', frames) ∧
    main .serial none (" ".toList.intercalate ((frames.map sentLine).map (List.drop 2))) = .ok (.messages o) ∧
    o.cmds = ds.map (fun d => (1, .command d)) ∧ List.Forall₂ ArrivesAs [sampleCommand, sampleCommand] ds ∧ o.errors = [] :=
  C92_session (Parser.new false) (by decide) _ (by simpa using sampleCommand_transmittable) (by simp) none

/-- C92 is false for a whole log line: with `"> "` in front the tool raises TypeError, for every type. -/
theorem C92_whole_line_refuted (k : Kind) (id : Option Int) (frame : List UInt8) :
    main k id (sentLine frame) = .error .typeError := by
  have h : bytes (sentLine frame) = .error .typeError := by
    refine (C60_bytes _).2 ?_
    rintro ⟨bs, h⟩
    obtain ⟨w, t, w', e, hw, hw', ht⟩ := h
    cases w with
    | cons c w =>
      have : c = '>' := by simpa [sentLine] using (congrArg List.head? e).symm
      subst this
      exact absurd (hw '>' (by simp)) (by decide)
    | nil =>
      cases ht with
      | nil =>
        have : '>' ∈ w' := by rw [List.nil_append, List.nil_append] at e; rw [← e]; simp [sentLine]
        exact absurd (hw' _ this) (by decide)
      | space _ => simp [sentLine] at e
      | @byte b bs s h l gap h1 h2 h3 h4 =>
        have : h = '>' := by simpa [sentLine] using (congrArg List.head? e).symm
        subst this
        have := (hexDigit_iff '>' (b.toNat / 16)).2 ⟨by have := b.toNat_lt; omega, h1⟩
        exact absurd this (by rw [show hexDigit '>' = none by decide]; simp)
  unfold main
  rw [h]
  rfl

/-- C92 is false for lines with their line ends: the tool raises TypeError if there is a line end between bytes. -/
theorem C92_line_end_refuted (k : Kind) (id : Option Int) {f g : List UInt8} (hf : f ≠ []) (hg : g ≠ []) :
    main k id ((sentLine f).drop 2 ++ '\n' :: (sentLine g).drop 2) = .error .typeError := by
  show main k id (joined f ++ '\n' :: joined g) = .error .typeError
  have h : bytes (joined f ++ '\n' :: joined g) = .error .typeError := by
    refine (C60_bytes _).2 ?_
    rintro ⟨bs, h⟩
    have hb := (C60_bytes _).1 bs |>.2 h
    obtain ⟨c, r, h1, h2⟩ := joined_head hf
    obtain ⟨d, q, h3, h4⟩ := joined_last hg
    unfold bytes at hb
    rw [strip_id (s := joined f ++ '\n' :: joined g) (c := c) (d := d) (r := r ++ '\n' :: joined g)
      (q := joined f ++ '\n' :: q) (by rw [h1]; simp) (by rw [h3]; simp) h2 h4] at hb
    exact decodeHex_digits hb '\n' (by simp [removeSpaces]) (by decide)
  unfold main
  rw [h]
  rfl

/-- One line works, two lines with their line end do not. -/
example : bytes ((sentLine [0xC0, 1]).drop 2) = .ok [0xC0, 1] ∧
    bytes ((sentLine [0xC0, 1]).drop 2 ++ '\n' :: (sentLine [0xC0, 2]).drop 2) = .error .typeError := by decide

/-- C92: for every command that survives, generate_messages.py prints a text that makes the tool show this command. -/
theorem C92_generated (c : Command) (hc : Transmittable c) (id : Option Int) :
    ∃ s o d, generated c = .ok s ∧ main .serial id s = .ok (.messages o) ∧ o.cmds = [(1, .command d)] ∧ ArrivesAs c d ∧
      o.errors = [] := by
  obtain ⟨b', fs, h1, h2, h3, -⟩ := buildAll_frames [c] (Parser.new false) (by decide) (by simpa using hc)
  obtain ⟨ds, e1, e2⟩ := delivered_commands h2 h3
  cases h3 with
  | @cons _ f _ _ hd hn =>
    cases hn
    cases e2 with
    | @cons _ d _ _ ha hn' =>
      cases hn'
      obtain ⟨o, k1, k2, k3⟩ := C60_serial [f] (fun g hg => (h2 g hg).1) (s := hexlify f.bytes)
        (by simpa using (C92_spells f.bytes).2.2.2) id
      refine ⟨hexlify f.bytes, o, d, ?_, k1, by rw [k2, e1]; rfl, ha, k3⟩
      unfold generated
      simp only [List.map_cons, List.map_nil, buildAll] at h1
      rcases hb : (Parser.new false).buildSerialFrame c.iter with ⟨q, _ | x⟩
      · rw [hb] at h1; cases h1
      · rw [hb] at h1
        simp only [Except.ok.injEq, Prod.mk.injEq, List.cons.injEq, and_true] at h1
        rw [h1.2]
        rfl

example : ∃ s o d, generated sampleCommand = .ok s ∧ main .serial none s = .ok (.messages o) ∧
    o.cmds = [(1, .command d)] ∧ ArrivesAs sampleCommand d ∧ o.errors = [] :=
  C92_generated _ sampleCommand_transmittable none

/-- The interface configuration that the `i`-th message of generate_messages.py asks for. -/
def askedFor : Nat → Configuration
  | 0 => ⟨{ QoS.default with respMod := .ALL }, ⟨0, 0⟩, ⟨0, .UID, .int 2656824718681607041, .NONE⟩⟩
  | 1 => ⟨{ QoS.default with respMod := .ALL }, ⟨0, 0⟩, ⟨2, .NOID, .none, .NONE⟩⟩
  | 2 => ⟨{ QoS.default with respMod := .NO }, ⟨0, 0⟩, ⟨1, .NOID, .none, .NONE⟩⟩
  | 3 => ⟨{ QoS.default with respMod := .ANY }, ⟨0, 0⟩, ⟨2, .UID, .int 0xDEADBEEFCAFEBABE, .NONE⟩⟩
  | 4 => ⟨{ QoS.default with respMod := .ANY }, ⟨0, 0⟩, ⟨1, .NOID, .none, .NONE⟩⟩
  | _ => ⟨{ QoS.default with respMod := .ANY }, ⟨2, 19⟩, ⟨0x21, .UID, .int 0xE0022600017B388F, .NONE⟩⟩

/-- What the node is to do. -/
def operationFor : Nat → Operation
  | 4 => .readFileData ⟨⟨0, ⟨0⟩⟩, ⟨8⟩⟩
  | 5 => .writeFileData ⟨⟨0x40, ⟨0⟩⟩, ⟨1⟩, [0]⟩
  | _ => .returnFileData ⟨⟨0x40, ⟨0⟩⟩, ⟨10⟩, [1, 2, 3, 4, 5, 6, 7, 8, 9, 10]⟩

theorem messages_built (rand : Nat → UInt8) : messages rand = (List.range 6).map fun i =>
    .ok ⟨[.regular false false (.forward ⟨.D7ASP, some (.d7asp (askedFor i))⟩),
      .regular false false (operationFor i)], none, true, some (rand i).toNat, true, false, none⟩ := by
  have h : ∀ a b c d e f, messages (fun i => [a, b, c, d, e, f].getD i 0) = (List.range 6).map fun i =>
    .ok ⟨[.regular false false (.forward ⟨.D7ASP, some (.d7asp (askedFor i))⟩),
      .regular false false (operationFor i)], none, true, some ([a, b, c, d, e, f].getD i 0).toNat, true, false, none⟩ := by
    intros
    rfl
  exact h _ _ _ _ _ _

theorem messages_transmittable (rand : Nat → UInt8) (i : Nat) (hi : i < 6) :
    Transmittable ⟨[.regular false false (.forward ⟨.D7ASP, some (.d7asp (askedFor i))⟩),
      .regular false false (operationFor i)], none, true, some (rand i).toNat, true, false, none⟩ := by
  have hB : (askedFor i).Built ∧ (askedFor i).addressee.Survives := by
    obtain _ | _ | _ | _ | _ | _ | i := i <;>
      first
      | omega
      | exact ⟨⟨by decide, rfl, fun c hc => by cases hc⟩, fun c hc => by cases hc⟩
  have hO : (Action.regular false false (operationFor i)).Built ∧
      (operationFor i).Survives false false ∧ ¬ (operationFor i).isTag := by
    obtain _ | _ | _ | _ | _ | _ | i := i <;>
      first
      | omega
      | exact ⟨⟨by show Data.Built _; decide, trivial⟩, by simp [Operation.Survives, operationFor], id⟩
      | exact ⟨⟨by show DataRequest.Built _; decide, trivial⟩, by simp [Operation.Survives, operationFor], id⟩
  have hr := (rand i).toNat_lt
  refine ⟨fun a ha => ?_, fun _ => ⟨(rand i).toNat, rfl, by omega, by omega⟩, rfl, fun bs h => ?_⟩
  · simp only [List.mem_cons, List.not_mem_nil, or_false] at ha
    rcases ha with rfl | rfl
    · have hF : (Action.regular false false (.forward ⟨.D7ASP, some (.d7asp (askedFor i))⟩)).Built :=
        ⟨fun c h => by cases h; exact hB.1, trivial⟩
      exact ⟨hF, (C19_action_iff _ hF).2 ⟨trivial, rfl, hB.2⟩, id⟩
    · exact ⟨hO.1, (C19_action_iff _ hO.1).2 ⟨trivial, hO.2.1⟩, hO.2.2⟩
  · have hrest : ∃ rest : List UInt8, Emits (.concat [(Action.regular false false
        (.forward ⟨.D7ASP, some (.d7asp (askedFor i))⟩)).iter, (Action.regular false false (operationFor i)).iter]) rest ∧
        rest.length ≤ 253 := by
      obtain _ | _ | _ | _ | _ | _ | i := i <;> first | omega | exact ⟨_, rfl, by decide⟩
    obtain ⟨rest, e1, e2⟩ := hrest
    have ht : Emits (Command.tagRequestGen ⟨[.regular false false (.forward ⟨.D7ASP, some (.d7asp (askedFor i))⟩),
        .regular false false (operationFor i)], none, true, some (rand i).toNat, true, false, none⟩) [0xB4, rand i] := by
      have : TagId.new ((rand i).toNat : Int) = .ok ⟨(rand i).toNat⟩ := validate_of ⟨by omega, by omega⟩
      show Emits (match TagId.new ((rand i).toNat : Int) with | .error e => _ | .ok t => _) _
      rw [this]
      have := (Emits.int (i := 0xB4) (by decide) (by decide)).append
        (Emits.int (i := ((rand i).toNat : Int)) (by omega) (by omega))
      have e : UInt8.ofNat ((rand i).toNat : Int).toNat = rand i := by simp
      rw [e] at this
      exact this
    have hall : Emits (Command.iter ⟨[.regular false false (.forward ⟨.D7ASP, some (.d7asp (askedFor i))⟩),
        .regular false false (operationFor i)], none, true, some (rand i).toNat, true, false, none⟩)
        (([0xB4, rand i] ++ []) ++ rest) := (ht.append Emits.nil).append e1
    rw [← hall.unique h]
    simp only [List.append_nil, List.cons_append, List.nil_append, List.length_cons]
    omega

/-- C92: each of the six messages of generate_messages.py is made and printed, whatever the tags are, and the printed frame
makes the tool show a command with this tag, the interface configuration asked for and the operation. -/
theorem C92_messages (rand : Nat → UInt8) (i : Nat) (hi : i < 6) (id : Option Int) :
    ∃ c s o d, (messages rand)[i]? = some (.ok c) ∧ generated c = .ok s ∧ main .serial id s = .ok (.messages o) ∧
      o.cmds = [(1, .command d)] ∧ o.errors = [] ∧ d.tagId = some ((rand i).toNat : Int) ∧
      d.actions.map Action.operation = [.forward ⟨.D7ASP, some (.d7asp (askedFor i))⟩, operationFor i] := by
  obtain ⟨s, o, d, h1, h2, h3, h4, h5⟩ := C92_generated _ (messages_transmittable rand i hi) id
  refine ⟨_, s, o, d, ?_, h1, h2, h3, h5, h4.2.2.1, ?_⟩
  · rw [messages_built]
    simp [List.getElem?_range hi]
  · have := congrArg (List.map Prod.fst) h4.1
    rw [List.map_map, List.map_map] at this
    exact this

/-- The fifth message with tag 7. -/
example : (messages fun _ => 7)[4]? = some (.ok ⟨[.regular false false (.forward ⟨.D7ASP, some (.d7asp (askedFor 4))⟩),
      .regular false false (.readFileData ⟨⟨0, ⟨0⟩⟩, ⟨8⟩⟩)], none, true, some 7, true, false, none⟩) ∧
    generated ⟨[.regular false false (.forward ⟨.D7ASP, some (.d7asp (askedFor 4))⟩),
      .regular false false (.readFileData ⟨⟨0, ⟨0⟩⟩, ⟨8⟩⟩)], none, true, some 7, true, false, none⟩ =
      .ok "c00000010cea21b40732d70200100101000008".toList := by decide +kernel

end Verif.HexText
