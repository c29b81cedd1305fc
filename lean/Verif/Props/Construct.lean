import Verif.Lemmas.CommandRun

/-! C21: construction of a command from a list of actions. -/

namespace Verif

/-- An interface status action (status action with extension 1). -/
def Action.isInterfaceStatus : Action → Bool
  | .status e _ => e == 1
  | _ => false

/-- A tag request or tag response action. -/
def Action.isTagAction : Action → Bool
  | .tagRequest _ _ => true
  | .tagResponse _ _ _ => true
  | _ => false

/-- The tag carried by an action (`action.operand.tag_id`). -/
def Action.tagValue (a : Action) : Option Int :=
  match a.operation with
  | .tagRequest t => some t.tagId
  | .tagResponse t => some t.tagId
  | _ => none

namespace Command

/-- The command before validation. -/
private def finish (b : Building) (l : List Action) : Building :=
  { actions := b.actions ++ (l.filter plain).map some
    interfaceStatus := b.interfaceStatus.or (l.filter Action.isInterfaceStatus).head?
    tagId := b.tagId.or ((l.filter Action.isTagAction).head?.bind Action.tagValue)
    sendTagResponseWhenCompleted := match (l.filter Action.isTagAction).head? with
      | some (.tagRequest r _) => r
      | _ => b.sendTagResponseWhenCompleted
    executionCompleted := match (l.filter Action.isTagAction).head? with
      | some (.tagResponse eop _ _) => eop
      | _ => b.executionCompleted
    completedWithError := match (l.filter Action.isTagAction).head? with
      | some (.tagResponse _ error _) => some error
      | _ => b.completedWithError }

private theorem kinds (a : Action) :
    (plain a = true ∧ a.isInterfaceStatus = false ∧ a.isTagAction = false) ∨
    (plain a = false ∧ (∃ o, a = .status 1 o) ∧ a.isInterfaceStatus = true ∧ a.isTagAction = false) ∨
    (plain a = false ∧ (∃ r o, a = .tagRequest r o) ∧ a.isInterfaceStatus = false ∧
      a.isTagAction = true) ∨
    (plain a = false ∧ (∃ e x o, a = .tagResponse e x o) ∧ a.isInterfaceStatus = false ∧
      a.isTagAction = true) := by
  cases a with
  | status e o =>
    by_cases h : e = 1
    · subst h; simp [plain, Action.isInterfaceStatus, Action.isTagAction]
    · simp [plain, Action.isInterfaceStatus, Action.isTagAction, h]
  | _ => simp [plain, Action.isInterfaceStatus, Action.isTagAction]

private theorem tagId_ok {a : Action} {t : Int} (h : a.tagValue = some t) :
    a.operation.tagId = .ok t := by
  unfold Action.tagValue at h
  unfold Operation.tagId
  split at h <;> simp_all

private theorem fold_spec (l : List Action) : ∀ (b : Building),
    (∀ a ∈ l, a.isTagAction = true → a.tagValue ≠ none) →
    (l.map some).foldlM addInit b =
      if b.interfaceStatus.isSome.toNat + (l.filter Action.isInterfaceStatus).length ≤ 1 ∧
        b.tagId.isSome.toNat + (l.filter Action.isTagAction).length ≤ 1
      then .ok (finish b l) else .error .parseError := by
  induction l with
  | nil =>
    intro b _
    have h1 : b.interfaceStatus.isSome.toNat ≤ 1 := Bool.toNat_le _
    have h2 : b.tagId.isSome.toNat ≤ 1 := Bool.toNat_le _
    simp [finish, pure, Except.pure, h1, h2]
  | cons a l ih =>
    intro b hw
    have ih := fun b => ih b (fun x hx => hw x (by simp [hx]))
    rw [List.map_cons, List.foldlM_cons]
    rcases kinds a with ⟨h1, h2, h3⟩ | ⟨h1, ⟨o, rfl⟩, h2, h3⟩ | ⟨h1, ⟨r, o, rfl⟩, h2, h3⟩ |
      ⟨h1, ⟨e, x, o, rfl⟩, h2, h3⟩
    · rw [addInit_plain _ _ h1]
      simp only [bind, Except.bind]
      rw [ih]
      simp [h1, h2, h3, finish]
    · simp only [addInit]
      cases hs : b.interfaceStatus with
      | some y => simp [hs, h2, bind, Except.bind]
      | none =>
        simp only [ne_eq, not_true_eq_false, if_false, bind, Except.bind]
        rw [ih]
        simp [h1, h2, h3, hs, finish]
    · obtain ⟨t, ht⟩ := Option.ne_none_iff_exists'.1 (hw _ (by simp) h3)
      have ht' := tagId_ok ht
      simp only [Action.operation] at ht'
      simp only [addInit]
      cases hs : b.tagId with
      | some y => simp [hs, h3, bind, Except.bind]
      | none =>
        simp only [ne_eq, not_true_eq_false, if_false, bind, Except.bind, ht', pure, Except.pure]
        rw [ih]
        simp only [h1, h2, h3, hs, List.filter_cons, finish, if_true, List.length_cons, ht,
          List.head?_cons, Option.isSome, Bool.toNat, cond, Option.none_or, Option.bind_some,
          Option.or_some, Bool.false_eq_true, if_false, Option.some_or]
        by_cases hc : (l.filter Action.isTagAction).length = 0
        · have := List.length_eq_zero_iff.1 hc
          simp [this]
        · rw [if_neg (by omega), if_neg (by omega)]
    · obtain ⟨t, ht⟩ := Option.ne_none_iff_exists'.1 (hw _ (by simp) h3)
      have ht' := tagId_ok ht
      simp only [Action.operation] at ht'
      simp only [addInit]
      cases hs : b.tagId with
      | some y => simp [hs, h3, bind, Except.bind]
      | none =>
        simp only [ne_eq, not_true_eq_false, if_false, bind, Except.bind, ht', pure, Except.pure]
        rw [ih]
        simp only [h1, h2, h3, hs, List.filter_cons, finish, if_true, List.length_cons, ht,
          List.head?_cons, Option.isSome, Bool.toNat, cond, Option.none_or, Option.bind_some,
          Option.or_some, Bool.false_eq_true, if_false, Option.some_or]
        by_cases hc : (l.filter Action.isTagAction).length = 0
        · have := List.length_eq_zero_iff.1 hc
          simp [this]
        · rw [if_neg (by omega), if_neg (by omega)]

end Command

/-- C21: two interface status actions, two tag actions, or a tag action besides an explicit tag id
are refused with ParseError. (`hw`: tag actions carry a TagId operand.) -/
theorem C21_refuses (as : List Action) (gen : Bool) (tag : Option Int) (snd : Bool) (rand : UInt8)
    (hw : ∀ a ∈ as, a.isTagAction = true → a.tagValue ≠ none)
    (h : 2 ≤ (as.filter Action.isInterfaceStatus).length ∨
      2 ≤ (if tag = none then 0 else 1) + (as.filter Action.isTagAction).length) :
    Command.new (as.map some) gen tag snd rand = .error .parseError := by
  unfold Command.new
  rw [Command.fold_spec _ _ hw, if_neg]
  · rfl
  · rintro ⟨h1, h2⟩
    simp only [Option.isSome_none, Bool.toNat_false] at h1
    cases tag <;> simp only [Option.isSome_some, Option.isSome_none, Bool.toNat_true,
      Bool.toNat_false, if_true, reduceCtorEq, if_false] at h h2 <;> omega

/-- A tag request besides an explicit tag. -/
example : Command.new ([.tagRequest true (.tagRequest ⟨77⟩)].map some) true (some 5) true 9 = .error .parseError :=
  C21_refuses [.tagRequest true (.tagRequest ⟨77⟩)] true (some 5) true 9
    (fun a ha _ => by rw [List.mem_singleton.1 ha]; decide) (.inr (by decide))

/-- C21: in all other cases the command holds exactly the remaining actions in their original order,
the interface status action separately, and the tag and flags of the tag action; without tag action
the explicit tag id, or a random one if none was given and tag requests are generated. -/
theorem C21_accepts (as : List Action) (gen : Bool) (tag : Option Int) (snd : Bool) (rand : UInt8)
    (hw : ∀ a ∈ as, a.isTagAction = true → a.tagValue ≠ none)
    (h : ¬ (2 ≤ (as.filter Action.isInterfaceStatus).length ∨
      2 ≤ (if tag = none then 0 else 1) + (as.filter Action.isTagAction).length)) :
    ∃ c, Command.new (as.map some) gen tag snd rand = .ok c ∧
      c.actions = as.filter (fun a => !a.isInterfaceStatus && !a.isTagAction) ∧
      c.interfaceStatus.toList = as.filter Action.isInterfaceStatus ∧
      c.generateTagRequestAction = gen ∧
      (as.filter Action.isTagAction = [] →
        c.tagId = (if gen = true ∧ tag = none then some (rand.toNat : Int) else tag) ∧
        c.sendTagResponseWhenCompleted = snd ∧ c.executionCompleted = false ∧
        c.completedWithError = none) ∧
      (∀ r o, as.filter Action.isTagAction = [.tagRequest r o] →
        c.tagId = (Action.tagRequest r o).tagValue ∧ c.tagId ≠ none ∧
        c.sendTagResponseWhenCompleted = r ∧ c.executionCompleted = false ∧
        c.completedWithError = none) ∧
      (∀ e x o, as.filter Action.isTagAction = [.tagResponse e x o] →
        c.tagId = (Action.tagResponse e x o).tagValue ∧ c.tagId ≠ none ∧
        c.sendTagResponseWhenCompleted = snd ∧ c.executionCompleted = e ∧
        c.completedWithError = some x) := by
  have hfilter : as.filter Command.plain =
      as.filter (fun a => !a.isInterfaceStatus && !a.isTagAction) := by
    refine List.filter_congr fun a _ => ?_
    rcases Command.kinds a with ⟨h1, h2, h3⟩ | ⟨h1, _, h2, h3⟩ | ⟨h1, _, h2, h3⟩ | ⟨h1, _, h2, h3⟩ <;>
    simp [h1, h2, h3]
  have hcond : (none : Option Action).isSome.toNat +
      (as.filter Action.isInterfaceStatus).length ≤ 1 ∧
      tag.isSome.toNat + (as.filter Action.isTagAction).length ≤ 1 := by
    cases tag <;> simp only [Option.isSome_some, Option.isSome_none, Bool.toNat_true,
      Bool.toNat_false, if_true, reduceCtorEq, if_false] at h ⊢ <;> omega
  unfold Command.new
  rw [Command.fold_spec _ _ hw, if_pos hcond]
  simp only [bind, Except.bind, Command.finish, List.nil_append, Command.allSome_map,
    Option.none_or]
  refine ⟨_, rfl, hfilter, ?_, rfl, ?_, ?_, ?_⟩
  · have := hcond.1
    match hl : as.filter Action.isInterfaceStatus with
    | [] => rfl
    | [x] => rfl
    | x :: y :: r => rw [hl] at this; simp at this
  · intro hn
    simp [hn]
  · intro r o hn
    have hmem : Action.tagRequest r o ∈ as := by
      have : Action.tagRequest r o ∈ as.filter Action.isTagAction := by rw [hn]; simp
      exact (List.mem_filter.1 this).1
    obtain ⟨t, ht⟩ := Option.ne_none_iff_exists'.1 (hw _ hmem rfl)
    have htag : tag = none := by
      have := hcond.2
      rw [hn] at this
      cases tag
      · rfl
      · simp at this
    simp [hn, ht, htag]
  · intro e x o hn
    have hmem : Action.tagResponse e x o ∈ as := by
      have : Action.tagResponse e x o ∈ as.filter Action.isTagAction := by rw [hn]; simp
      exact (List.mem_filter.1 this).1
    obtain ⟨t, ht⟩ := Option.ne_none_iff_exists'.1 (hw _ hmem rfl)
    have htag : tag = none := by
      have := hcond.2
      rw [hn] at this
      cases tag
      · rfl
      · simp at this
    simp [hn, ht, htag]

/-- A tag response, a returned file and an interface status. -/
example : Command.new ([.tagResponse true false (.tagResponse ⟨77⟩),
      .regular false false (.returnFileData ⟨⟨0x40, ⟨0⟩⟩, ⟨1⟩, [5]⟩),
      .status 1 (.interfaceStatus ⟨1, none⟩)].map some) false none true 9 =
    .ok ⟨[.regular false false (.returnFileData ⟨⟨0x40, ⟨0⟩⟩, ⟨1⟩, [5]⟩)],
      some (.status 1 (.interfaceStatus ⟨1, none⟩)), false, some 77, true, true, some false⟩ := by
  decide
/-- Two tags. -/
example : Command.new ([.tagResponse true false (.tagResponse ⟨77⟩),
    .tagRequest true (.tagRequest ⟨77⟩)].map some) false none true 9 = .error .parseError := by
  decide

/-- C21: `get_d7asp_interface_status` of a command returns the status of its interface status action if that is
one of the D7ASP interface, and None if it is one of another interface or if there is no such action. -/
theorem C21_d7asp_status (as : List Action) (gen : Bool) (tag : Option Int) (snd : Bool) (rand : UInt8)
    (hw : ∀ a ∈ as, a.isTagAction = true → a.tagValue ≠ none) (c : Command)
    (hc : Command.new (as.map some) gen tag snd rand = .ok c) :
    (as.filter Action.isInterfaceStatus = [] → c.getD7aspInterfaceStatus = .ok none) ∧
    ∀ o, as.filter Action.isInterfaceStatus = [.status 1 (.interfaceStatus o)] →
      (o.interfaceId = 0xD7 → c.getD7aspInterfaceStatus = .ok o.status) ∧
      (o.interfaceId ≠ 0xD7 → c.getD7aspInterfaceStatus = .ok none) := by
  have h : c.interfaceStatus.toList = as.filter Action.isInterfaceStatus := by
    by_cases hbad : 2 ≤ (as.filter Action.isInterfaceStatus).length ∨
        2 ≤ (if tag = none then 0 else 1) + (as.filter Action.isTagAction).length
    · rw [C21_refuses as gen tag snd rand hw hbad] at hc; cases hc
    · obtain ⟨d, hd, -, h2, -⟩ := C21_accepts as gen tag snd rand hw hbad
      rw [hc] at hd; cases hd; exact h2
  unfold Command.getD7aspInterfaceStatus
  constructor
  · intro h0
    rw [h0] at h
    rw [Option.toList_eq_nil_iff.1 h]
  · intro o h1
    rw [h1] at h
    rw [Option.toList_eq_singleton_iff.1 h]
    exact ⟨fun hi => if_neg (not_not.2 hi), fun hi => if_pos hi⟩

/-- A status of the host interface (0) and one of D7ASP. -/
example (s : Status) : ∃ c d, Command.new [some (.status 1 (.interfaceStatus ⟨0, some s⟩))] false none true 9 = .ok c ∧
    Command.new [some (.status 1 (.interfaceStatus ⟨0xD7, some s⟩))] false none true 9 = .ok d ∧
    c.getD7aspInterfaceStatus = .ok none ∧ d.getD7aspInterfaceStatus = .ok (some s) :=
  ⟨_, _, rfl, rfl, rfl, rfl⟩

/-- C21: a `None` among the actions (the parser puts one there for an action status) never yields a
command. -/
theorem C21_none (as : List (Option Action)) (gen : Bool) (tag : Option Int) (snd : Bool)
    (rand : UInt8) (h : none ∈ as) (c : Command) : Command.new as gen tag snd rand ≠ .ok c := by
  have key : ∀ (l : List (Option Action)) (b b' : Command.Building),
      none ∈ l ∨ none ∈ b.actions → l.foldlM Command.addInit b = .ok b' → none ∈ b'.actions := by
    intro l
    induction l with
    | nil =>
      intro b b' h e
      cases e
      simpa using h
    | cons a l ih =>
      intro b b' h e
      rw [List.foldlM_cons] at e
      cases ha : Command.addInit b a with
      | error x => rw [ha] at e; cases e
      | ok b1 =>
        rw [ha] at e
        refine ih b1 b' ?_ e
        unfold Command.addInit at ha
        split at ha
        · split at ha <;> cases ha
          simpa using h
        · split at ha
          · cases ha
          · rename_i o _
            cases ho : o.tagId <;> rw [ho] at ha <;> cases ha
            simpa using h
        · split at ha
          · cases ha
          · rename_i o _
            cases ho : o.tagId <;> rw [ho] at ha <;> cases ha
            simpa using h
        · cases ha
          simp only [List.mem_cons, List.mem_append, List.not_mem_nil, or_false] at h ⊢
          tauto
  have key2 : ∀ l : List (Option Action), none ∈ l → Command.allSome l = none := by
    intro l hl
    induction l with
    | nil => cases hl
    | cons a l ih =>
      cases a with
      | none => rfl
      | some a =>
        have : none ∈ l := by simpa using hl
        simp [Command.allSome, ih this]
  intro e
  unfold Command.new at e
  cases hf : as.foldlM Command.addInit
      (⟨[], none, tag, snd, false, none⟩ : Command.Building) with
  | error x => rw [hf] at e; cases e
  | ok b =>
    rw [hf] at e
    simp only [bind, Except.bind] at e
    rw [key2 _ (key _ _ _ (.inl h) hf)] at e
    cases e

example (c : Command) : Command.new [some (.regular false false .nop), none] false none true 9 ≠ .ok c :=
  C21_none _ _ _ _ _ (by simp) c

end Verif
