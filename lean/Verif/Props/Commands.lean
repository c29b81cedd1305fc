import Verif.Lemmas.CommandRun
import Verif.Props.Actions
import Verif.Lemmas.Layout

/-! C20–C23: ALP commands. -/

namespace Verif

/-! ## C20 command round trip -/

/-- The operation is a tag (request or response): such an action becomes the tag of the received
command instead of one of its actions. -/
def Operation.isTag : Operation → Prop
  | .tagRequest _ => True
  | .tagResponse _ => True
  | _ => False

namespace AlpParser

theorem actions_segs (l : List Action)
    (h : ∀ a ∈ l, a.Built ∧ a.Iterable ∧ a.operation.Survives a.flags.1 a.flags.2) :
    ∃ bss : List (List UInt8 × Option Action),
      Emits (.concat (l.map Action.iter)) (bss.map Prod.fst).flatten ∧
      bss.map Prod.snd = l.map (fun a => some (a.operation.received a.flags.1 a.flags.2)) ∧
      ∀ x ∈ bss, Reads parseAlpAction x.2 (bytesToBits x.1) ∧ 1 ≤ x.1.length := by
  induction l with
  | nil => exact ⟨[], Emits.nil, rfl, by simp⟩
  | cons a l ih =>
    obtain ⟨bss, e, hm, hr⟩ := ih (fun x hx => h x (by simp [hx]))
    obtain ⟨hb, hi, hs⟩ := h a (by simp)
    obtain ⟨n, hc⟩ := survives_codec _ _ _ hb.1 hs
    obtain ⟨bs, e1, l1, r1⟩ := sent_codec hc
    rw [← a.iter_sent hb hi] at e1
    refine ⟨(bs, some (a.operation.received a.flags.1 a.flags.2)) :: bss, e1.append e,
      by simp [hm], ?_⟩
    intro x hx
    rcases List.mem_cons.1 hx with rfl | hx
    · exact ⟨r1, by simp only; omega⟩
    · exact hr x hx

theorem bytesToBits_flatten (l : List (List UInt8)) :
    bytesToBits l.flatten = (l.map bytesToBits).flatten := by
  induction l with
  | nil => rfl
  | cons a l ih => simp [ih]

theorem parse_run_bytes (bss : List (List UInt8 × Option Action))
    (h : ∀ x ∈ bss, Reads parseAlpAction x.2 (bytesToBits x.1) ∧ 1 ≤ x.1.length)
    (pos : Nat) (hpos : pos % 8 = 0) (following : List UInt8) :
    parse ((bss.map Prod.fst).flatten.length)
        ⟨pos, bytesToBits ((bss.map Prod.fst).flatten ++ following)⟩ =
      P.lift (Command.new (bss.map Prod.snd) false none true 0)
        ⟨pos + 8 * (bss.map Prod.fst).flatten.length, bytesToBits following⟩ := by
  have := parse_run (bss.map fun x => (bytesToBits x.1, x.2)) (by
    intro x hx
    obtain ⟨y, hy, rfl⟩ := List.mem_map.1 hx
    obtain ⟨h1, h2⟩ := h y hy
    exact ⟨h1, by simp, by simp; omega⟩) pos hpos (bytesToBits following)
  simp only [List.map_map] at this
  have e1 : (bss.map (Prod.fst ∘ fun x => (bytesToBits x.1, x.2))).flatten =
      bytesToBits (bss.map Prod.fst).flatten := by
    rw [bytesToBits_flatten, List.map_map]; rfl
  have e2 : bss.map (Prod.snd ∘ fun x => (bytesToBits x.1, x.2)) = bss.map Prod.snd := rfl
  rw [e1, e2, bytesToBits_length, Nat.mul_div_cancel_left _ (by omega : 0 < 8),
    ← bytesToBits_append] at this
  exact this

theorem received_plain (b7 b6 : Bool) (o : Operation) (h : o.Survives b7 b6) (ht : ¬ o.isTag) :
    Command.plain (o.received b7 b6) = true := by
  cases o <;> simp_all [Operation.received, Command.plain, Operation.isTag, Operation.Survives]

end AlpParser

/-- C20 for commands whose actions are among those that come back (C19) and are not tag actions:
serialising succeeds and parsing the bytes (with cmd_length = their number), whatever follows,
consumes exactly these bytes and returns a command with the same actions (operation, operand and
flag bits) in the same order, the same tag id and response flag if a tag request is generated, no
interface status. What is missing: the actions excluded by C19, and commands with an interface
status. -/
theorem C20_command_round_trip_partial (c : Command)
    (hact : ∀ a ∈ c.actions, a.Built ∧ a.ComesBack ∧ ¬ a.operation.isTag)
    (htag : c.generateTagRequestAction = true → ∃ t, c.tagId = some t ∧ 0 ≤ t ∧ t ≤ 255)
    (hst : c.interfaceStatus = none) :
    ∃ (bs : List UInt8) (d : Command), bytearray c.iter = .ok bs ∧
      (∀ following, AlpParser.parse bs.length (stream (bs ++ following)) =
        .ok d ⟨8 * bs.length, bytesToBits following⟩) ∧
      d.actions.map (fun a => (a.operation, a.flags)) =
        c.actions.map (fun a => (a.operation, a.flags)) ∧
      d.interfaceStatus = none ∧
      d.tagId = (if c.generateTagRequestAction then c.tagId else none) ∧
      d.sendTagResponseWhenCompleted =
        (if c.generateTagRequestAction then c.sendTagResponseWhenCompleted else true) ∧
      d.executionCompleted = false ∧ d.completedWithError = none ∧
      d.generateTagRequestAction = false := by
  have hact' : ∀ a ∈ c.actions,
      a.Built ∧ a.Iterable ∧ a.operation.Survives a.flags.1 a.flags.2 := by
    intro a ha
    obtain ⟨h1, h2, _⟩ := hact a ha
    exact ⟨h1, (C19_action_iff a h1).1 h2⟩
  obtain ⟨bss, e, hm, hr⟩ := AlpParser.actions_segs c.actions hact'
  set rs := c.actions.map (fun a => a.operation.received a.flags.1 a.flags.2) with hrs
  have hm' : bss.map Prod.snd = rs.map some := by rw [hm, hrs, List.map_map]; rfl
  have hplain : ∀ a ∈ rs, Command.plain a = true := by
    intro a ha
    obtain ⟨x, hx, rfl⟩ := List.mem_map.1 ha
    exact AlpParser.received_plain _ _ _ (hact' x hx).2.2 (hact x hx).2.2
  have hsame : rs.map (fun a => (a.operation, a.flags)) =
      c.actions.map (fun a => (a.operation, a.flags)) := by
    rw [hrs, List.map_map]
    refine List.map_congr_left fun a ha => ?_
    have := Operation.received_same _ _ _ (hact' a ha).2.2
    simp only [Function.comp, this.1, this.2]
  cases hg : c.generateTagRequestAction with
  | false =>
    refine ⟨(bss.map Prod.fst).flatten, ⟨rs, none, false, none, true, false, none⟩, ?_, ?_, hsame,
      rfl, rfl, rfl, rfl, rfl, rfl⟩
    · have : Emits c.iter ([] ++ [] ++ (bss.map Prod.fst).flatten) := by
        unfold Command.iter
        simp only [hg, hst]
        exact (Emits.nil.append Emits.nil).append e
      simpa [Emits] using this
    · intro following
      rw [stream, AlpParser.parse_run_bytes bss hr 0 rfl, hm']
      unfold Command.new
      rw [Command.fold_plain _ _ hplain]
      simp [bind, Except.bind, Command.allSome_map, P.lift]
  | true =>
    obtain ⟨t, ht, h0, h1⟩ := htag hg
    have hb : (⟨t⟩ : TagId).Built := validate_of ⟨h0, h1⟩
    obtain ⟨n, hc⟩ := AlpParser.survives_codec c.sendTagResponseWhenCompleted false
      (.tagRequest ⟨t⟩) hb rfl
    obtain ⟨tb, e1, l1, r1⟩ := AlpParser.sent_codec hc
    have het : Emits c.tagRequestGen tb := by
      unfold Command.tagRequestGen
      have hnew : TagId.new t = .ok ⟨t⟩ := hb
      simp only [ht, hnew]
      exact e1
    refine ⟨tb ++ (bss.map Prod.fst).flatten,
      ⟨rs, none, false, some t, c.sendTagResponseWhenCompleted, false, none⟩, ?_, ?_, hsame,
      rfl, by simp [ht], rfl, rfl, rfl, rfl⟩
    · have : Emits c.iter (tb ++ [] ++ (bss.map Prod.fst).flatten) := by
        unfold Command.iter
        simp only [hg, hst]
        exact (het.append Emits.nil).append e
      simpa [Emits] using this
    · intro following
      have := AlpParser.parse_run_bytes ((tb, some (.tagRequest c.sendTagResponseWhenCompleted
        (.tagRequest ⟨t⟩))) :: bss) (by
          intro x hx
          rcases List.mem_cons.1 hx with rfl | hx
          · exact ⟨r1, by simp only; omega⟩
          · exact hr x hx) 0 rfl following
      simp only [List.map_cons, List.flatten_cons] at this
      rw [stream, this, hm']
      unfold Command.new
      rw [List.foldlM_cons]
      simp only [Command.addInit, Operation.tagId, bind, Except.bind, pure, Except.pure, ne_eq,
        not_true_eq_false, if_false]
      rw [Command.fold_plain _ _ hplain]
      simp [Command.allSome_map, P.lift]

/-- A tagged write of 3 bytes preceded by a forward meets the hypotheses. -/
example : ∃ bs d, bytearray (Command.iter ⟨[.regular false false (.forward ⟨.SERIAL, none⟩),
      .regular false true (.writeFileData ⟨⟨0x40, ⟨70⟩⟩, ⟨3⟩, [1, 2, 255]⟩)],
      none, true, some 77, true, false, none⟩) = .ok bs ∧
    AlpParser.parse bs.length (stream bs) = .ok d ⟨8 * bs.length, []⟩ ∧ d.tagId = some 77 := by
  obtain ⟨bs, d, h1, h2, -, -, h3, -⟩ := C20_command_round_trip_partial
    ⟨[.regular false false (.forward ⟨.SERIAL, none⟩),
      .regular false true (.writeFileData ⟨⟨0x40, ⟨70⟩⟩, ⟨3⟩, [1, 2, 255]⟩)],
      none, true, some 77, true, false, none⟩ (by
    intro a ha
    simp only [List.mem_cons, List.not_mem_nil, or_false] at ha
    rcases ha with rfl | rfl
    · have hb : (Action.regular false false (.forward ⟨.SERIAL, none⟩)).Built :=
        ⟨by rintro c ⟨⟩, trivial⟩
      exact ⟨hb, (C19_action_iff _ hb).2 ⟨trivial, rfl, trivial⟩, id⟩
    · have hb : (Action.regular false true
          (.writeFileData ⟨⟨0x40, ⟨70⟩⟩, ⟨3⟩, [1, 2, 255]⟩)).Built :=
        ⟨show Data.Built ⟨⟨0x40, ⟨70⟩⟩, ⟨3⟩, [1, 2, 255]⟩ by decide, trivial⟩
      exact ⟨hb, (C19_action_iff _ hb).2 ⟨trivial, by simp [Operation.Survives, Action.operation]⟩,
        id⟩)
    (fun _ => ⟨77, rfl, by decide⟩) rfl
  refine ⟨bs, d, h1, ?_, h3⟩
  have := h2 []
  simpa using this

/-- C20 is false with an interface status: the status action is sent without its length byte, so
the command holding it does not come back. -/
theorem C20_interface_status_lost :
    ∃ (c : Command) (bs : List UInt8), (∃ o : InterfaceStatusOperand, o.Built ∧
        Command.new [some (.status 1 (.interfaceStatus o))] false none true 0 = .ok c) ∧
      bytearray c.iter = .ok bs ∧ ∀ d s, AlpParser.parse bs.length (stream bs) ≠ .ok d s := by
  refine ⟨⟨[], some (.status 1 (.interfaceStatus ⟨0xD7, some ⟨⟨⟨.PN9, .LO_RATE, .BAND_868⟩, 16⟩, 70,
    80, 80, false, true, false, true, 200, 0, ⟨2, 20⟩, ⟨0x21, .NOID, .none, .NONE⟩⟩⟩)), false, none,
    true, false, none⟩, [0x62, 0xD7, 0x30, 0, 16, 70, 80, 80, 0x50, 200, 0, 0x54, 0x10, 0x21],
    ⟨⟨0xD7, some ⟨⟨⟨.PN9, .LO_RATE, .BAND_868⟩, 16⟩, 70,
    80, 80, false, true, false, true, 200, 0, ⟨2, 20⟩, ⟨0x21, .NOID, .none, .NONE⟩⟩⟩, ?_, rfl⟩,
    by decide, ?_⟩
  · refine ⟨by decide, ?_⟩
    rintro s ⟨⟩
    refine ⟨by decide, by decide, by decide, by decide, ?_⟩
    intro c h; cases h
  · intro d s h
    have : (match AlpParser.parse 14 (stream [0x62, 0xD7, 0x30, 0, 16, 70, 80, 80, 0x50, 200, 0,
        0x54, 0x10, 0x21]) with
      | .ok _ _ => true
      | .err _ _ => false) = false := by decide +kernel
    have h' : AlpParser.parse 14 (stream [0x62, 0xD7, 0x30, 0, 16, 70, 80, 80, 0x50, 200, 0,
        0x54, 0x10, 0x21]) = .ok d s := h
    rw [h'] at this
    cases this

end Verif
