import Verif.Lemmas.AlpGood

/-! The sub-parsers of the ALP parser consume whole bytes; an action takes at least one byte. -/

namespace Verif

macro "adv_steps" : tactic => `(tactic| with_reducible repeat' first
  | exact Adv.uint _ | exact Adv.sint _ | exact Adv.bool | exact Adv.pad _ | exact Adv.bytes _
  | exact Adv.lift _ | exact Adv.pure _ | exact Adv.assert _ _
  | assumption
  | apply Adv.bind | intro (_ : _) | apply Adv.opt)

/-- Adds up the bits read by a sequence of reads. -/
macro "adv" : tactic => `(tactic| (
  apply Adv.weaken
  · adv_steps
  all_goals omega))

theorem CT.adv : Adv CT.parse 0 0 := by unfold CT.parse; adv
theorem ChannelHeader.adv : Adv ChannelHeader.parse 0 0 := by unfold ChannelHeader.parse; adv
theorem ChannelID.adv : Adv ChannelID.parse 0 0 := by
  have := ChannelHeader.adv
  unfold ChannelID.parse; adv
theorem FilePermissions.adv : Adv FilePermissions.parse 0 0 := by
  unfold FilePermissions.parse; adv
theorem FileProperties.adv : Adv FileProperties.parse 0 0 := by
  unfold FileProperties.parse; adv
theorem FileHeader.adv : Adv FileHeader.parse 0 0 := by
  have := FilePermissions.adv
  have := FileProperties.adv
  unfold FileHeader.parse; adv
theorem FileHeaderOperand.adv : Adv FileHeaderOperand.parse 0 0 := by
  have := FileHeader.adv
  unfold FileHeaderOperand.parse; adv
theorem Addressee.parseRawId_adv (t : IdType) : Adv (Addressee.parseRawId t) 0 0 := by
  unfold Addressee.parseRawId; split <;> adv
theorem Addressee.adv : Adv Addressee.parse 0 0 := by
  unfold Addressee.parse
  refine Adv.weaken (Adv.bind (Adv.pad 2) fun _ => Adv.bind (Adv.uint 2) fun _ =>
    Adv.bind (Adv.lift _) fun _ => Adv.bind (Adv.uint 4) fun _ => Adv.bind (Adv.lift _) fun _ =>
    Adv.bind (Adv.uint 8) fun _ => Adv.bind (Addressee.parseRawId_adv _) fun _ =>
    Adv.bind (Adv.lift _) fun _ => Adv.lift _) (by omega) (by omega)
theorem QoS.adv : Adv QoS.parse 0 0 := by unfold QoS.parse; adv
theorem Configuration.adv : Adv Configuration.parse 0 0 := by
  have := QoS.adv
  have := CT.adv
  have := Addressee.adv
  unfold Configuration.parse; adv
theorem Status.adv : Adv Status.parse 0 0 := by
  have := ChannelID.adv
  have := CT.adv
  have := Addressee.adv
  unfold Status.parse; adv
theorem Length.adv : Adv Length.parse 0 8 := by
  unfold Length.parse
  refine Adv.weaken (Adv.bind (Adv.uint 2) fun a => Adv.bind (k := 6) (n := 6)
    ((Adv.uint (6 + a.toNat * 8)).weaken (by omega) (by omega)) fun _ => Adv.lift _)
    (by omega) (by omega)
theorem Offset.adv : Adv Offset.parse 0 0 := by
  have := Length.adv
  unfold Offset.parse; adv
theorem ArithQueryParams.adv : Adv ArithQueryParams.parse 4 0 := by
  unfold ArithQueryParams.parse; adv
theorem QueryOperand.adv : Adv QueryOperand.parse 0 0 := by
  have := ArithQueryParams.adv
  have := Length.adv
  have := Offset.adv
  unfold QueryOperand.parse; adv
theorem LoRaWANABP.adv : Adv LoRaWANABP.parse 0 0 := by unfold LoRaWANABP.parse; adv
theorem LoRaWANOTAA.adv : Adv LoRaWANOTAA.parse 0 0 := by unfold LoRaWANOTAA.parse; adv

namespace AlpParser

theorem parseFileDataRequestOperand_adv : Adv parseFileDataRequestOperand 0 0 := by
  have := Length.adv
  have := Offset.adv
  unfold parseFileDataRequestOperand; adv
theorem parseReturnFileDataOperand_adv : Adv parseReturnFileDataOperand 0 0 := by
  have := Length.adv
  have := Offset.adv
  unfold parseReturnFileDataOperand; adv
theorem parseInterfaceStatusD7asp_adv (l : Int) : Adv (parseInterfaceStatusD7asp l) 0 0 := by
  have := Status.adv
  unfold parseInterfaceStatusD7asp; adv
theorem parseInterfaceStatus_adv (i l : Int) : Adv (parseInterfaceStatus i l) 0 0 := by
  have := parseInterfaceStatusD7asp_adv l
  unfold parseInterfaceStatus parseInterfaceStatusHost parseInterfaceStatusSerial
  split
  · adv
  split
  · adv
  split
  · adv
  · exact Adv.raise
theorem parseInterfaceStatusAction_adv : Adv parseInterfaceStatusAction 0 0 := by
  unfold parseInterfaceStatusAction
  exact Adv.weaken (Adv.bind (Adv.uint 8) fun _ => Adv.bind (Adv.uint 8) fun _ =>
    Adv.bind (parseInterfaceStatus_adv _ _) fun _ => Adv.bind (Adv.lift _) fun _ => Adv.pure _)
    (by omega) (by omega)
theorem parseInterfaceConfig_adv (t : InterfaceType) : Adv (parseInterfaceConfig t) 0 0 := by
  have := Configuration.adv
  have := LoRaWANABP.adv
  have := LoRaWANOTAA.adv
  cases t <;> unfold parseInterfaceConfig
  · exact Adv.raise
  all_goals adv

theorem dispatch_adv (op : Int) (b7 b6 : Bool) : Adv (dispatch op b7 b6) 0 0 := by
  have := parseFileDataRequestOperand_adv
  have := parseReturnFileDataOperand_adv
  have := QueryOperand.adv
  have := FileHeaderOperand.adv
  have := Addressee.adv
  have h1 := parseInterfaceStatusAction_adv
  unfold dispatch
  split; · unfold parseReadFileDataAction; adv
  split; · unfold parseWriteFileDataAction; adv
  split; · unfold parseBreakQueryAction; adv
  split; · unfold parseCreateFileAction; adv
  split; · unfold parseReturnFileDataAction; adv
  split; · unfold parseReturnFileHeaderAction; adv
  split
  · unfold parseReturnStatusAction
    split
    · exact Adv.raise
    split <;> adv
  split; · unfold parseTagResponseAction; adv
  split
  · unfold parseForwardAction
    split
    · exact Adv.raise
    · exact Adv.weaken (Adv.bind (Adv.uint 8) fun _ => Adv.bind (Adv.lift _) fun _ =>
        Adv.bind (parseInterfaceConfig_adv _) fun _ => Adv.bind (Adv.lift _) fun _ => Adv.pure _)
        (by omega) (by omega)
  split; · unfold parseIndirectForwardAction; adv
  split
  · unfold parseTagRequestAction
    split
    · exact Adv.raise
    · adv
  · exact Adv.raise

theorem parseAlpAction_adv : Adv parseAlpAction 0 8 := by
  unfold parseAlpAction
  exact Adv.weaken (Adv.bind Adv.bool fun _ => Adv.bind Adv.bool fun _ =>
    Adv.bind (Adv.uint 6) fun _ => dispatch_adv _ _ _) (by omega) (by omega)

/-! ### The loop -/

/-- The loop without the alignment check. -/
def loop (cmdLength : Int) : Nat → Int → List (Option Action) → P (List (Option Action))
  | 0, parsed, actions => if parsed < cmdLength then P.raise .nonTermination else return actions
  | fuel + 1, parsed, actions => fun s =>
    if parsed < cmdLength then
      match parseAlpAction s with
      | .ok a s' => loop cmdLength fuel (parsed + ((s'.pos - s.pos) / 8 : Nat)) (actions ++ [a]) s'
      | .err e s' => .err e s'
    else .ok actions s

theorem parseLoop_eq (n : Int) (fuel : Nat) : ∀ (parsed : Int) (as : List (Option Action)) (s : St),
    s.pos % 8 = 0 → parseLoop n fuel parsed as s = loop n fuel parsed as s := by
  induction fuel with
  | zero => intro parsed as s _; rfl
  | succ fuel ih =>
    intro parsed as s hs
    unfold parseLoop loop
    by_cases h : parsed < n
    · simp only [h, if_true, P.bind_apply, P.bytepos, hs]
      cases hp : parseAlpAction s with
      | err e s' => rfl
      | ok a s' =>
        have := parseAlpAction_adv _ _ _ hp
        have h8 : s'.pos % 8 = 0 := by omega
        simp only [h8, if_true]
        rw [ih _ _ _ h8]
        congr 1
        omega
    · simp only [h, if_false]
      rfl

/-- With enough budget the loop does not depend on it, and the result is that of a parser that
looks only at consumed bits. -/
theorem loop_good (n : Int) (fuel : Nat) : ∀ (parsed : Int) (as : List (Option Action)) (s : St),
    s.rest.length < fuel → match loop n fuel parsed as s with
    | .ok r s' => ∃ c, s.rest = c ++ s'.rest ∧ s'.pos = s.pos + c.length ∧ c.length % 8 = 0 ∧
        (n ≤ parsed + c.length / 8) ∧
        ∀ pos rest fuel', (c ++ rest).length < fuel' →
          loop n fuel' parsed as ⟨pos, c ++ rest⟩ = .ok r ⟨pos + c.length, rest⟩
    | .err e s' => ∃ c, s.rest = c ++ s'.rest ∧ s'.pos = s.pos + c.length ∧ AlpErr e ∧
        (e ≠ .readError → ∀ pos rest fuel', (c ++ rest).length < fuel' →
          loop n fuel' parsed as ⟨pos, c ++ rest⟩ = .err e ⟨pos + c.length, rest⟩) := by
  induction fuel with
  | zero => intro _ _ s h; omega
  | succ fuel ih =>
    intro parsed as s hlen
    simp only [loop]
    by_cases h : parsed < n
    · simp only [h, if_true]
      cases hp : parseAlpAction s with
      | err e s' =>
        simp only []
        obtain ⟨c, e1, e2, e3⟩ := parseAlpAction_good.err hp
        refine ⟨c, e1, e2, parseAlpAction_errs _ _ _ hp, fun hne pos rest fuel' hf => ?_⟩
        obtain ⟨f, rfl⟩ : ∃ f, fuel' = f + 1 := ⟨fuel' - 1, by omega⟩
        simp only [loop, h, if_true, e3 hne]
      | ok a s' =>
        simp only []
        obtain ⟨c, e1, e2, e3⟩ := parseAlpAction_good.ok hp
        have hadv := parseAlpAction_adv _ _ _ hp
        have hl : s.rest.length = c.length + s'.rest.length := by rw [e1]; simp
        have hih := ih (parsed + ((s'.pos - s.pos) / 8 : Nat)) (as ++ [a]) s' (by omega)
        have hc : (s'.pos - s.pos) / 8 = c.length / 8 := by rw [e2]; simp
        rw [hc] at hih ⊢
        cases hl2 : loop n fuel (parsed + (c.length / 8 : Nat)) (as ++ [a]) s' with
        | ok r s'' =>
          rw [hl2] at hih
          obtain ⟨d, d1, d2, d3, d4, d5⟩ := hih
          refine ⟨c ++ d, by rw [e1, d1]; simp, by simp [d2, e2, Nat.add_assoc],
            by simp; omega, by simp; omega, fun pos rest fuel' hf => ?_⟩
          obtain ⟨f, rfl⟩ : ∃ f, fuel' = f + 1 := ⟨fuel' - 1, by omega⟩
          simp only [loop, h, if_true, List.append_assoc, e3 pos (d ++ rest)]
          have : (pos + c.length - pos) / 8 = c.length / 8 := by simp
          rw [this]
          simp at hf
          rw [d5 _ _ _ (by simp; omega)]
          simp [Nat.add_assoc]
        | err e s'' =>
          rw [hl2] at hih
          obtain ⟨d, d1, d2, d3, d5⟩ := hih
          refine ⟨c ++ d, by rw [e1, d1]; simp, by simp [d2, e2, Nat.add_assoc], d3,
            fun hne pos rest fuel' hf => ?_⟩
          obtain ⟨f, rfl⟩ : ∃ f, fuel' = f + 1 := ⟨fuel' - 1, by omega⟩
          simp only [loop, h, if_true, List.append_assoc, e3 pos (d ++ rest)]
          have : (pos + c.length - pos) / 8 = c.length / 8 := by simp
          rw [this]
          simp at hf
          rw [d5 hne _ _ _ (by simp; omega)]
          simp [Nat.add_assoc]
    · simp only [h, if_false]
      refine ⟨[], rfl, rfl, rfl, by simp; omega, fun pos rest fuel' hf => ?_⟩
      obtain ⟨f, rfl⟩ : ∃ f, fuel' = f + 1 := ⟨fuel' - 1, by omega⟩
      simp [loop, h]

/-- A successful loop run splits the consumed bits into one segment per action, and stops as soon
as the requested length is reached. -/
theorem loop_segs (n : Int) (fuel : Nat) : ∀ (parsed : Int) (as : List (Option Action)) (s s' : St)
    (r : List (Option Action)), loop n fuel parsed as s = .ok r s' →
    ∃ segs : List (List Bool × Option Action), r = as ++ segs.map Prod.snd ∧
      s.rest = (segs.map Prod.fst).flatten ++ s'.rest ∧
      (∀ x ∈ segs, Reads parseAlpAction x.2 x.1 ∧ x.1.length % 8 = 0 ∧ 8 ≤ x.1.length) ∧
      (∀ init last, segs = init ++ [last] →
        parsed + ((init.map Prod.fst).flatten.length / 8 : Nat) < n) := by
  induction fuel with
  | zero =>
    intro parsed as s s' r h
    unfold loop at h
    split at h
    · cases h
    · cases h
      exact ⟨[], by simp, by simp, by simp, by simp⟩
  | succ fuel ih =>
    intro parsed as s s' r h
    unfold loop at h
    split at h
    · next hlt =>
      cases hp : parseAlpAction s with
      | err e s1 => rw [hp] at h; cases h
      | ok a s1 =>
        rw [hp] at h
        simp only [] at h
        obtain ⟨c, e1, e2, e3⟩ := parseAlpAction_good.ok hp
        have hadv := parseAlpAction_adv _ _ _ hp
        obtain ⟨segs, d1, d2, d3, d4⟩ := ih _ _ _ _ _ h
        refine ⟨(c, a) :: segs, by simp [d1], by simp [e1, d2], ?_, ?_⟩
        · intro x hx
          rcases List.mem_cons.1 hx with rfl | hx
          · exact ⟨e3, by simp only; omega, by simp only; omega⟩
          · exact d3 x hx
        · intro init last hl
          cases init with
          | nil => simp; omega
          | cons i init =>
            simp only [List.cons_append, List.cons.injEq] at hl
            obtain ⟨rfl, hl⟩ := hl
            have := d4 init last hl
            simp only [List.map_cons, List.flatten_cons, List.length_append]
            omega
    · cases h
      exact ⟨[], by simp, by simp, by simp, by simp⟩

theorem newCommand_err (as : List (Option Action)) (e : PyErr)
    (h : Command.new as false none true 0 = .error e) : AlpErr e := by
  have key : ∀ (l : List (Option Action)) (b : Command.Building) (e : PyErr),
      l.foldlM Command.addInit b = .error e → AlpErr e := by
    intro l
    induction l with
    | nil => intro b e h; cases h
    | cons a l ih =>
      intro b e h
      rw [List.foldlM_cons] at h
      cases ha : Command.addInit b a with
      | ok b' => rw [ha] at h; exact ih b' e h
      | error e' =>
        rw [ha] at h
        cases h
        have hop : ∀ (o : Operation) e, o.tagId = .error e → AlpErr e := by
          intro o e h
          unfold Operation.tagId at h
          split at h <;> cases h
          simp [AlpErr]
        unfold Command.addInit at ha
        split at ha
        · split at ha <;> cases ha
          simp [AlpErr]
        · split at ha
          · cases ha; simp [AlpErr]
          · rename_i o _
            cases ho : o.tagId with
            | ok t => rw [ho] at ha; cases ha
            | error x => rw [ho] at ha; cases ha; exact hop _ _ ho
        · split at ha
          · cases ha; simp [AlpErr]
          · rename_i o _
            cases ho : o.tagId with
            | ok t => rw [ho] at ha; cases ha
            | error x => rw [ho] at ha; cases ha; exact hop _ _ ho
        · cases ha
  unfold Command.new at h
  cases hf : as.foldlM Command.addInit
      (⟨[], none, none, true, false, none⟩ : Command.Building) with
  | error x =>
    rw [hf] at h; cases h; exact key _ _ _ hf
  | ok b =>
    rw [hf] at h
    simp only [bind, Except.bind] at h
    split at h
    · cases h; simp [AlpErr]
    · cases h

/-- What `AlpParser.parse` does, on an aligned stream. -/
theorem parse_spec (n : Int) (s : St) (hs : s.pos % 8 = 0) :
    match parse n s with
    | .ok r s' => ∃ c, s.rest = c ++ s'.rest ∧ s'.pos = s.pos + c.length ∧ c.length % 8 = 0 ∧
        n ≤ c.length / 8 ∧
        ∀ pos rest, pos % 8 = 0 → parse n ⟨pos, c ++ rest⟩ = .ok r ⟨pos + c.length, rest⟩
    | .err e s' => ∃ c, s.rest = c ++ s'.rest ∧ s'.pos = s.pos + c.length ∧ AlpErr e ∧
        (e ≠ .readError → ∀ pos rest, pos % 8 = 0 →
          parse n ⟨pos, c ++ rest⟩ = .err e ⟨pos + c.length, rest⟩) := by
  have unf : ∀ s : St, s.pos % 8 = 0 → n ≠ 0 → parse n s =
      match loop n (s.rest.length + 1) 0 [] s with
      | .ok as s' => P.lift (Command.new as false none true 0) s'
      | .err e s' => .err e s' := by
    intro s hs hn
    simp only [parse, P.bind_apply, parseActions, hn, ne_eq, not_false_eq_true, if_true,
      parseLoop_eq _ _ _ _ _ hs]
    cases loop n (s.rest.length + 1) 0 [] s <;> rfl
  by_cases hn : n = 0
  · subst hn
    have : ∀ s, parse 0 s = .ok ⟨[], none, false, none, true, false, none⟩ s := fun s => rfl
    rw [this]
    refine ⟨[], rfl, rfl, rfl, by simp, fun pos rest _ => by rw [this]; simp⟩
  · rw [unf s hs hn]
    have hl := loop_good n (s.rest.length + 1) 0 [] s (by omega)
    cases hr : loop n (s.rest.length + 1) 0 [] s with
    | err e s' =>
      rw [hr] at hl
      obtain ⟨c, e1, e2, e3, e4⟩ := hl
      refine ⟨c, e1, e2, e3, fun hne pos rest hpos => ?_⟩
      rw [unf _ hpos hn, e4 hne _ _ _ (by simp)]
    | ok as s' =>
      rw [hr] at hl
      obtain ⟨c, e1, e2, e3, e4, e5⟩ := hl
      simp only []
      cases hc : Command.new as false none true 0 with
      | ok r =>
        refine ⟨c, e1, e2, e3, by omega, fun pos rest hpos => ?_⟩
        rw [unf _ hpos hn, e5 _ _ _ (by simp)]
        simp [P.lift, hc]
      | error e =>
        refine ⟨c, e1, e2, newCommand_err _ _ hc, fun _ pos rest hpos => ?_⟩
        rw [unf _ hpos hn, e5 _ _ _ (by simp)]
        simp [P.lift, hc]

end AlpParser
end Verif
