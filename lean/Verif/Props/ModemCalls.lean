import Verif.Props.Modem

/-! What `execute_command` and `connect` return. -/

namespace Verif.Modem

open Verif Verif.Serial

/-! ### C46: execute_command returns only responses to that command -/

/-- C46 in every interleaving in which no ALP message is being handed over while `execute_command` prepares for the
responses (modem/modem.py 152-157): it returns the list of exactly those ALP and ping messages with its tag
that were handed over since the call, and one of them has the end-of-processing flag; or it returns an empty list
and none of them has it (none at all, unless the reading thread is just handing over a message). -/
theorem C46_result_partial {config : Config} (hk : config.skip = false)
    {before during : List Event} {last : Event} {s s1 s' : State} {cmd : Command} {timeout : Int}
    {o : Outcome} (ht : timeout > 0)
    (h0 : (init config).run before = some s)
    (h1 : s.run (.call (.execute cmd timeout) :: during) = some s1) (hp : s1.outcomes = s.outcomes)
    (h2 : s1.step last = some s') (ho : s'.outcomes = s.outcomes ++ [o])
    (hc : Calm s (.call (.execute cmd timeout) :: during)) :
    ∃ new handed, s1.received = s.received ++ new ∧
      handed ++ pending s1.reader = pending s.reader ++ new ∧
      ((o = .list s.responses.length ∧
          content s'.responses s.responses.length = handed.filterMap (response cmd.tagId) ∧
          ∃ c ∈ content s'.responses s.responses.length, c.executionCompleted = true) ∨
        (o = .empty ∧ (betweenMessages s1.reader = true →
          ∀ c ∈ handed.filterMap (response cmd.tagId), c.executionCompleted = false))) := by
  obtain ⟨hok, -, -, hcfg⟩ := run_handedOver (init_ok config) h0
  have hk' : s.config.skip = false := by rw [hcfg]; exact hk
  have hst : s.step (.call (.execute cmd timeout)) = some (s.startExecute .app cmd timeout) := by
    unfold State.run at h1
    simp only [State.step] at h1 ⊢
    by_cases hm : s.main = .idle
    · rw [if_pos hm]; rfl
    · rw [if_neg hm] at h1; cases h1
  have h1' : (s.startExecute .app cmd timeout).run during = some s1 := by
    unfold State.run at h1
    rw [hst] at h1
    exact h1
  have hst' := run_outcomes_left (es := [.call (.execute cmd timeout)])
    (by simp [State.run, hst]) h1' hp
  obtain ⟨new, handed, a1, a2, a3, a4, s2, l, a5, a6, a7, -, -, -, a11⟩ :=
    calm_call ht hok.1 hk' h1' hst' hp (hc.2 _ hst) h2
      (by rw [ho, hp]; intro h; simpa using congrArg List.length h)
  refine ⟨new, handed, a1, a2, ?_⟩
  have hres : s'.responses = s1.responses := by rw [a5, (finishExecute_rest s2 .app l).2.1, a7]
  rcases a11 with ⟨rfl, hx⟩ | ⟨rfl, hx⟩
  · refine .inl ⟨?_, by rw [hres]; exact a3, by rw [hres, a3]; exact hx⟩
    rw [a5, show (s2.finishExecute .app (some s.responses.length)).outcomes =
      s2.outcomes ++ [.list s.responses.length] from rfl, a6, hp] at ho
    simpa using (List.append_cancel_left ho).symm
  · refine .inr ⟨?_, hx⟩
    rw [a5, show (s2.finishExecute .app none).outcomes = s2.outcomes ++ [.empty] from rfl, a6, hp] at ho
    simpa using (List.append_cancel_left ho).symm

/-- The interleaving of the next example: an untagged message waits when the command with tag 7 is executed; two
responses to it arrive with one for tag 9 in between. -/
def run46 : List Event :=
  [.rx push, .call (.execute cmd7 10)] ++ mains 5 ++ reads 5 ++ [.rx (more7 ++ final9 ++ final7)] ++
    reads 12 ++ [.main]

example : ((init plain).run run46).map (fun s => (s.outcomes, s.responses, s.unsolicited)) =
    some ([.list 1], [[], [cMore7, cFinal7]], [[.command cPush, .command cFinal9]]) ∧
    Calm (init plain) run46 := by decide +kernel

/-- Timing out with one response that is not final. -/
example : ((init plain).run ([.call (.execute cmd7 10)] ++ mains 5 ++ [.rx more7] ++ reads 5 ++
      [.timeout])).map (fun s => (s.outcomes, s.responses)) = some ([.empty], [[], [cMore7]]) ∧
    Calm (init plain) ([.call (.execute cmd7 10)] ++ mains 5 ++ [.rx more7] ++ reads 5 ++ [.timeout]) := by
  decide +kernel

/-- C46 in every interleaving: the returned list is part of what was waiting at the call or received since, and its
messages carry the command's tag, or no tag, or the tag that was current at the call, or they were just being
handed over then. -/
theorem C46_tags_partial {config : Config} {before during : List Event} {last : Event} {s s1 s' : State}
    {cmd : Command} {timeout : Int} {n : Nat}
    (h0 : (init config).run before = some s)
    (h1 : s.run (.call (.execute cmd timeout) :: during) = some s1) (hp : s1.outcomes = s.outcomes)
    (h2 : s1.step last = some s') (ho : s'.outcomes = s.outcomes ++ [.list n]) :
    n = s.responses.length ∧
    (∃ new, s'.received = s.received ++ new ∧ ((content s'.responses n).map Msg.command).Sublist
      ((pending s.reader ++ new).map Prod.snd)) ∧
    ∀ c ∈ content s'.responses n, c.tagId = cmd.tagId ∨ c.tagId = none ∨ c.tagId = s.tag ∨
      ∃ t q c', c'.tagId = c.tagId ∧ (s.reader = .sync t c' q ∨ ∃ m, s.reader = .syncAppend t c' m q) := by
  obtain ⟨hok, -, -, hcfg⟩ := run_handedOver (init_ok config) h0
  have hst : s.step (.call (.execute cmd timeout)) = some (s.startExecute .app cmd timeout) := by
    unfold State.run at h1
    simp only [State.step] at h1 ⊢
    by_cases hm : s.main = .idle
    · rw [if_pos hm]; rfl
    · rw [if_neg hm] at h1; cases h1
  have h1' : (s.startExecute .app cmd timeout).run during = some s1 := by
    unfold State.run at h1
    rw [hst] at h1
    exact h1
  have hst' := run_outcomes_left (es := [.call (.execute cmd timeout)])
    (by simp [State.run, hst]) h1' hp
  rcases startExecute_running (s := s) (caller := .app) (cmd := cmd) (timeout := timeout) with
    ⟨e, he⟩ | ⟨-, frame, hr⟩
  · rw [hst'] at he
    exact absurd (congrArg List.length he) (by simp)
  have hp' : s1.outcomes = (s.startExecute .app cmd timeout).outcomes := by rw [hp, hst']
  have hr1 := (running_run hr h1' hp').1
  have hn : n = s.responses.length := by
    rcases running_step hr1 h2 with ⟨-, h6, -⟩ | ⟨s2, l, a1, a2, a3, -, -, -, -, -, -, -, a11⟩
    · rw [ho, hp] at h6
      exact absurd (congrArg List.length h6) (by simp)
    · rcases a11 with ⟨-, rfl, -⟩ | ⟨-, -, hl⟩
      · rw [a1, show (s2.finishExecute .app none).outcomes = s2.outcomes ++ [.empty] from rfl, a3,
          hp] at ho
        simpa using List.append_cancel_left ho
      · cases hcm : s1.completed with
        | false =>
          rw [hcm] at hl
          simp only [Bool.false_eq_true, if_false] at hl
          subst hl
          rw [a1, show (s2.finishExecute .app none).outcomes = s2.outcomes ++ [.empty] from rfl, a3,
            hp] at ho
          simpa using List.append_cancel_left ho
        | true =>
          rw [hcm] at hl
          simp only [if_true] at hl
          subst hl
          rw [a1, show (s2.finishExecute .app (some s.responses.length)).outcomes =
            s2.outcomes ++ [.list s.responses.length] from rfl, a3, hp] at ho
          simpa using (List.append_cancel_left ho).symm
  refine ⟨hn, ?_, ?_⟩
  · have hrun : s.run ((.call (.execute cmd timeout) :: during) ++ [last]) = some s' :=
      run_append.2 ⟨s1, h1, by simp [State.run, h2]⟩
    obtain ⟨-, log, hl, -⟩ := run_handedOver hok hrun
    obtain ⟨new, g1, g2⟩ := hl.messages
    refine ⟨new, g1, ?_⟩
    rw [hl.responses n, hn, content_length, ← g2, List.map_append]
    exact (toSink_sublist log _).trans (List.sublist_append_left _ _)
  · let T : Option Int → Prop := fun x => x = cmd.tagId ∨ x = none ∨ x = s.tag ∨
      ∃ t q c', c'.tagId = x ∧ (s.reader = .sync t c' q ∨ ∃ m, s.reader = .syncAppend t c' m q)
    have hT0 : TagsIn T n s := by
      refine ⟨.inr (.inr (.inl rfl)), ?_, ?_, ?_⟩
      · have : s.main = .idle := by
          simp only [State.step] at hst
          by_contra hm
          rw [if_neg hm] at hst
          cases hst
        rw [this]; trivial
      · cases hrd : s.reader with
        | sync t c q => exact .inr (.inr (.inr ⟨t, q, c, rfl, .inl hrd⟩))
        | syncAppend t c m q => exact .inr (.inr (.inr ⟨t, q, c, rfl, .inr ⟨m, hrd⟩⟩))
        | _ => trivial
      · intro m hm c hc
        exfalso
        unfold content at hc
        rw [List.getElem?_eq_none (by omega)] at hc
        cases hc
    have hno := running_no_call hr h1' hp'
    have hsync : ∀ e, (∀ c, e ≠ .call c) → syncTag e = none := by
      intro e he
      cases e with
      | call c => exact absurd rfl (he c)
      | _ => rfl
    have hT1 : TagsIn T n (s.startExecute .app cmd timeout) :=
      tagsIn_startExecute hT0 _ _ _ fun _ => .inl rfl
    have hT2 : TagsIn T n s1 := tagsIn_run (.inr (.inl rfl)) hT1
      (fun e he t ht => by rw [hsync e (hno e he)] at ht; cases ht) h1'
    have hlast : ∀ c, last ≠ .call c := by
      rintro c rfl
      obtain ⟨st, hm, -⟩ := hr1
      simp only [State.step, hm] at h2; simp at h2
    have hT3 : TagsIn T n s' := tagsIn_step (.inr (.inl rfl)) hT2
      (fun t ht => by rw [hsync last hlast] at ht; cases ht) h2
    exact hT3.2.2.2 n (le_refl n)

/-- A message with another tag and one without arrive while the command is executed. -/
example : ((init plain).run ([.call (.execute cmd7 10)] ++ mains 5 ++ [.rx (final9 ++ push ++ final7)] ++ reads 13)).map
      (fun s => s.outcomes) = some [] ∧
    ((init plain).run ([.call (.execute cmd7 10)] ++ mains 5 ++ [.rx (final9 ++ push ++ final7)] ++ reads 13 ++
      [.main])).map (fun s => (s.outcomes, content s.responses 1)) = some ([.list 1], [cFinal7]) := by decide +kernel

/-- C46 is false in general: a late response to the command with tag 7, which timed out, is handed over while the
command with tag 9 is between lines 152 and 153, and ends up in the list returned for tag 9. -/
theorem C46_refuted_late : ∃ s, (init plain).run ([.call (.execute cmd7 10)] ++ mains 5 ++
      [.timeout, .rx final7, .call (.execute cmd9 10), .main] ++ reads 4 ++ mains 4 ++
      [.reader, .rx final9] ++ reads 5 ++ [.main]) = some s ∧
    s.outcomes = [.empty, .list 2] ∧ content s.responses 2 = [cFinal7, cFinal9] := by
  obtain ⟨s, h, hs⟩ := Option.map_eq_some_iff.1 (show ((init plain).run
    ([.call (.execute cmd7 10)] ++ mains 5 ++
      [.timeout, .rx final7, .call (.execute cmd9 10), .main] ++ reads 4 ++ mains 4 ++
      [.reader, .rx final9] ++ reads 5 ++ [.main])).map (fun s => (s.outcomes, content s.responses 2)) =
    some ([.empty, .list 2], [cFinal7, cFinal9]) by decide +kernel)
  simp only [Prod.mk.injEq] at hs
  exact ⟨s, h, hs⟩

/-- The same with a message that has no tag at all, between lines 153 and 157. -/
theorem C46_refuted_untagged : ∃ s, (init plain).run ([.rx push, .call (.execute cmd9 10), .main, .main] ++
      reads 4 ++ mains 3 ++ [.reader, .rx final9] ++ reads 5 ++ [.main]) = some s ∧
    s.outcomes = [.list 1] ∧ content s.responses 1 = [cPush, cFinal9] := by
  obtain ⟨s, h, hs⟩ := Option.map_eq_some_iff.1 (show ((init plain).run
    ([.rx push, .call (.execute cmd9 10), .main, .main] ++
      reads 4 ++ mains 3 ++ [.reader, .rx final9] ++ reads 5 ++ [.main])).map
        (fun s => (s.outcomes, content s.responses 1)) =
    some ([.list 1], [cPush, cFinal9]) by decide +kernel)
  simp only [Prod.mk.injEq] at hs
  exact ⟨s, h, hs⟩

/-- A response to the command with tag 9, more to come. -/
def more9 : List UInt8 := [0xc0, 0, 1, 1, 2, 0xdf, 0x93, 0x23, 9]

def cMore9 : Command := ⟨[], none, false, some 9, true, false, some false⟩

/-- The reading thread is interrupted between lines 223 and 225 by a whole new call up to line 158: the
command with tag 9 counts as completed, and its list is returned without a final response. -/
theorem C46_refuted_completed : ∃ s, (init plain).run ([.call (.execute cmd7 10)] ++ mains 5 ++
      [.timeout, .rx final7] ++ reads 3 ++ [.call (.execute cmd9 10)] ++ mains 5 ++ reads 2 ++
      [.rx more9] ++ reads 5 ++ [.main]) = some s ∧
    s.outcomes = [.empty, .list 2] ∧ content s.responses 2 = [cMore9] ∧
    cMore9.executionCompleted = false := by
  obtain ⟨s, h, hs⟩ := Option.map_eq_some_iff.1 (show ((init plain).run
    ([.call (.execute cmd7 10)] ++ mains 5 ++
      [.timeout, .rx final7] ++ reads 3 ++ [.call (.execute cmd9 10)] ++ mains 5 ++ reads 2 ++
      [.rx more9] ++ reads 5 ++ [.main])).map
        (fun s => (s.outcomes, content s.responses 2)) =
    some ([.empty, .list 2], [cMore9]) by decide +kernel)
  simp only [Prod.mk.injEq] at hs
  exact ⟨s, h, hs.1, hs.2, rfl⟩

/-- Executing with timeout 0, or with `skip_alp_parsing`, returns an empty list whatever arrives. -/
theorem C46_async {config : Config} {before during : List Event} {last : Event} {s s1 s' : State}
    {cmd : Command} {timeout : Int} {o : Outcome} (ht : timeout = 0 ∨ config.skip = true)
    (h0 : (init config).run before = some s)
    (h1 : s.run (.call (.execute cmd timeout) :: during) = some s1) (hp : s1.outcomes = s.outcomes)
    (h2 : s1.step last = some s') (ho : s'.outcomes = s.outcomes ++ [o]) : o = .empty := by
  obtain ⟨hok, -, -, hcfg⟩ := run_handedOver (init_ok config) h0
  have hst : s.step (.call (.execute cmd timeout)) = some (s.startExecute .app cmd timeout) := by
    unfold State.run at h1
    simp only [State.step] at h1 ⊢
    by_cases hm : s.main = .idle
    · rw [if_pos hm]; rfl
    · rw [if_neg hm] at h1; cases h1
  have h1' : (s.startExecute .app cmd timeout).run during = some s1 := by
    unfold State.run at h1
    rw [hst] at h1
    exact h1
  have hst' := run_outcomes_left (es := [.call (.execute cmd timeout)])
    (by simp [State.run, hst]) h1' hp
  rcases startExecute_running (s := s) (caller := .app) (cmd := cmd) (timeout := timeout) with
    ⟨e, he⟩ | ⟨-, frame, hr⟩
  · rw [hst'] at he
    exact absurd (congrArg List.length he) (by simp)
  have hz : (if s.config.skip then 0 else timeout) = 0 := by
    rw [hcfg]
    rcases ht with rfl | ht
    · simp
    · rw [show (init config).config.skip = true from ht]; rfl
  rw [hz] at hr
  have hp' : s1.outcomes = (s.startExecute .app cmd timeout).outcomes := by rw [hp, hst']
  have hr1 := (running_run hr h1' hp').1
  rcases running_step hr1 h2 with ⟨-, h6, -⟩ | ⟨s2, l, a1, a2, a3, -, -, -, -, -, -, -, a11⟩
  · rw [ho, hp] at h6
    exact absurd (congrArg List.length h6) (by simp)
  · rcases a11 with ⟨-, rfl, -⟩ | ⟨h, -⟩
    · rw [a1, show (s2.finishExecute .app none).outcomes = s2.outcomes ++ [.empty] from rfl, a3,
        hp] at ho
      simpa using (List.append_cancel_left ho).symm
    · exact absurd rfl h

example : ((init plain).run ([.call (.execute cmd7 0)] ++ mains 5)).map (fun s => s.outcomes) =
    some [.empty] := by decide +kernel

/-- The application thread can end the call within `n` steps and a timeout. -/
def CanEnd (n : Nat) (s : State) : Prop := ∃ k s', k ≤ n ∧
    (s.run (mains k) = some s' ∨ s.run (mains k ++ [.timeout]) = some s') ∧ s'.main = .idle

theorem CanEnd.step {n : Nat} {s s1 : State} (h : s.step .main = some s1) (hs : CanEnd n s1) :
    CanEnd (n + 1) s := by
  obtain ⟨k, s', hk, hr, hm⟩ := hs
  refine ⟨k + 1, s', by omega, ?_, hm⟩
  rcases hr with hr | hr
  · left; simp [mains, List.replicate_succ, State.run, h]; simpa [mains] using hr
  · right; simp [mains, List.replicate_succ, State.run, h]; simpa [mains] using hr

/-- Whatever the reading thread does or does not do, the application thread can always finish the call by itself:
at most five steps and the timeout. -/
theorem C46_ends (s : State) : CanEnd 5 s := by
  have hwait : ∀ (s : State) c t f x, s.main = .run .wait c t f x → CanEnd 0 s := by
    intro s c t f x h
    refine ⟨0, s.finishExecute c (if s.completed then some (s.responses.length - 1) else none),
      le_refl _, .inr ?_, finishExecute_main _ _ _⟩
    simp [mains, State.run, State.step, State.timeoutStep, h]
  have hwrite : ∀ (s : State) c t f x, s.main = .run .write c t f x → CanEnd 1 s := by
    intro s c t f x h
    by_cases hx : x = 0
    · refine ⟨1, { s with written := s.written ++ f }.finishExecute c none, le_refl _, .inl ?_,
        finishExecute_main _ _ _⟩
      simp [mains, State.run, State.step, State.mainStep, h, hx]
    · exact CanEnd.step
        (s1 := { s with written := s.written ++ f, main := .run .wait c t f x })
        (by simp only [State.step, State.mainStep, h, if_neg hx]) (hwait _ c t f x rfl)
  have hset : ∀ (s : State) c t f x, s.main = .run .setTag c t f x → CanEnd 2 s := fun s c t f x h =>
    CanEnd.step
      (s1 := { s with tag := if x > 0 then t else s.tag, main := .run .write c t f x })
      (by simp only [State.step, State.mainStep, h]) (hwrite _ c t f x rfl)
  have hcomp : ∀ (s : State) c t f x, s.main = .run .resetCompleted c t f x → CanEnd 3 s :=
    fun s c t f x h => CanEnd.step
      (s1 := { s with completed := false, main := .run .setTag c t f x })
      (by simp only [State.step, State.mainStep, h]) (hset _ c t f x rfl)
  have htag : ∀ (s : State) c t f x, s.main = .run .resetTag c t f x → CanEnd 4 s :=
    fun s c t f x h => CanEnd.step
      (s1 := { s with tag := none, main := .run .resetCompleted c t f x })
      (by simp only [State.step, State.mainStep, h]) (hcomp _ c t f x rfl)
  have hlist : ∀ (s : State) c t f x, s.main = .run .resetList c t f x → CanEnd 5 s :=
    fun s c t f x h => CanEnd.step
      (s1 := { s with responses := s.responses ++ [[]], main := .run .resetTag c t f x })
      (by simp only [State.step, State.mainStep, h]) (htag _ c t f x rfl)
  have mono : ∀ {n}, n ≤ 5 → CanEnd n s → CanEnd 5 s := fun hn ⟨k, s', hk, h⟩ => ⟨k, s', by omega, h⟩
  cases hm : s.main with
  | idle => exact ⟨0, s, by omega, .inl rfl, hm⟩
  | run st c t f x =>
    cases st with
    | resetList => exact mono (by decide) (hlist s c t f x hm)
    | resetTag => exact mono (by decide) (htag s c t f x hm)
    | resetCompleted => exact mono (by decide) (hcomp s c t f x hm)
    | setTag => exact mono (by decide) (hset s c t f x hm)
    | write => exact mono (by decide) (hwrite s c t f x hm)
    | wait => exact mono (by decide) (hwait s c t f x hm)

/-- In the middle of a call. -/
example : ((init plain).run ([.call (.execute cmd7 10)] ++ mains 2)).map (fun s => s.main == .idle) = some false ∧
    ((init plain).run ([.call (.execute cmd7 10)] ++ mains 5 ++ [.timeout])).map (fun s => s.main) = some .idle := by
  decide +kernel

/-! ### C50: connect -/

/-- C50 for a modem that has learned nothing yet, in every interleaving in which no message is being handed over
while `execute_command` prepares for the responses: `rs` are the messages with the tag of the request that were
handed over. `connect` returns True exactly when a final one is among them and the first one contains an 8-byte UID and
a firmware version and no other content for these files; the modem is then connected. It returns False when
there is no final one, or the first one lacks one of the two. It raises when the first one has other content
for one of these files. -/
theorem C50_result_partial {config : Config} (hk : config.skip = false)
    {before during : List Event} {last : Event} {s s1 s' : State} {rand : UInt8} {o : Outcome}
    (h0 : (init config).run before = some s) (hu : s.uid = none) (hf : s.firmwareVersion = none)
    (hcon : s.connected = false)
    (h1 : s.run (.call (.connect true rand) :: during) = some s1) (hp : s1.outcomes = s.outcomes)
    (h2 : s1.step last = some s') (ho : s'.outcomes = s.outcomes ++ [o])
    (hc : Calm s (.call (.connect true rand) :: during)) :
    ∃ new handed rs, s1.received = s.received ++ new ∧
      handed ++ pending s1.reader = pending s.reader ++ new ∧
      rs = handed.filterMap (response (some (rand.toNat : Int))) ∧
      ((o = .bool true ∧ s'.connected = true ∧ (∃ c ∈ rs, c.executionCompleted = true) ∧
          ∃ c0 rest, rs = c0 :: rest ∧ (∀ a ∈ c0.actions, ¬ ReturnsJunk a) ∧
            (∃ u, s'.uid = some u ∧ ∃ a ∈ c0.actions, ReturnsUid a u) ∧
            ∃ f, s'.firmwareVersion = some f ∧ ∃ a ∈ c0.actions, ReturnsFirmware a f) ∨
        (o = .bool false ∧ s'.connected = false ∧
          ((betweenMessages s1.reader = true → ∀ c ∈ rs, c.executionCompleted = false) ∨
            ∃ c0 rest, rs = c0 :: rest ∧ (∀ a ∈ c0.actions, ¬ ReturnsJunk a) ∧
              ((∀ a ∈ c0.actions, ∀ u, ¬ ReturnsUid a u) ∨
                ∀ a ∈ c0.actions, ∀ f, ¬ ReturnsFirmware a f))) ∨
        ((∃ e, o = .raised e) ∧ s'.connected = false ∧
          ∃ c0 rest, rs = c0 :: rest ∧ ∃ a ∈ c0.actions, ReturnsJunk a)) := by
  obtain ⟨hok, -, -, hcfg⟩ := run_handedOver (init_ok config) h0
  have hk' : s.config.skip = false := by rw [hcfg]; exact hk
  obtain ⟨cmd, hcmd⟩ : ∃ cmd, infoCommand rand = .ok cmd := ⟨_, rfl⟩
  have htag := infoCommand_tag hcmd
  have hst : s.step (.call (.connect true rand)) = some (s.startExecute .connect cmd 10) := by
    unfold State.run at h1
    simp only [State.step] at h1 ⊢
    by_cases hm : s.main = .idle
    · rw [if_pos hm]
      simp [State.startCall, hcon, hcmd, hk']
    · rw [if_neg hm] at h1; cases h1
  have h1' : (s.startExecute .connect cmd 10).run during = some s1 := by
    unfold State.run at h1
    rw [hst] at h1
    exact h1
  have hst' := run_outcomes_left (es := [.call (.connect true rand)])
    (by simp [State.run, hst]) h1' hp
  obtain ⟨new, handed, a1, a2, a3, a4, s2, l, a5, a6, a7, a8, a9, a10, a11⟩ :=
    calm_call (by decide) hok.1 hk' h1' hst' hp (hc.2 _ hst) h2
      (by rw [ho, hp]; intro h; simpa using congrArg List.length h)
  rw [htag] at a3 a11
  refine ⟨new, handed, _, a1, a2, rfl, ?_⟩
  have hget : s1.responses[s.responses.length]? = some (content s1.responses s.responses.length) := by
    unfold content
    rw [List.getElem?_eq_getElem a4]
  generalize hrs : handed.filterMap (response (some (rand.toNat : Int))) = rs at a3 a11
  rw [hu] at a8
  rw [hf] at a9
  rw [hcon] at a10
  rw [a6.trans hp |>.symm] at ho
  rcases a11 with ⟨rfl, hfin⟩ | ⟨rfl, hfin⟩
  · -- a list was returned
    have hs' : s' = s2.finishConnect (some rs) := by
      rw [a5]
      unfold State.finishExecute
      simp only [Option.bind_some]
      rw [a7, hget, a3]
    cases rs with
    | nil => obtain ⟨c, hc, -⟩ := hfin; cases hc
    | cons c0 rest =>
      unfold State.finishConnect at hs'
      simp only [a8, a9, a10] at hs'
      cases hri : readInfo c0.actions none none with
      | mk uid y =>
        obtain ⟨fw, e⟩ := y
        obtain ⟨i1, i2, i3⟩ := readInfo_spec hri
        rw [hri] at hs'
        cases e with
        | some e =>
          simp only at hs'
          right; right
          refine ⟨⟨e, ?_⟩, by rw [hs']; rfl, c0, rest, rfl, ?_⟩
          · rw [hs'] at ho
            simpa [State.finish] using ho.symm
          · by_contra hno
            have := i1.2 fun a ha hj => hno ⟨a, ha, hj⟩
            cases this
        | none =>
          simp only at hs'
          have hj := i1.1 rfl
          have hconn : s'.connected = (uid.isSome && fw.isSome) := by rw [hs']; simp [State.finish]
          have hout : o = .bool (uid.isSome && fw.isSome) := by
            rw [hs'] at ho
            simpa [State.finish] using ho.symm
          have huid : s'.uid = uid := by rw [hs']; rfl
          have hfw : s'.firmwareVersion = fw := by rw [hs']; rfl
          rcases i2 with ⟨n, rfl, i2⟩ | ⟨rfl, i2⟩
          · rcases i3 with ⟨x, rfl, i3⟩ | ⟨rfl, i3⟩
            · left
              exact ⟨hout, hconn, hfin, c0, rest, rfl, hj, ⟨n, huid, i2⟩, x, hfw, i3⟩
            · right; left
              exact ⟨hout, hconn, .inr ⟨c0, rest, rfl, hj, .inr (i3 rfl)⟩⟩
          · right; left
            exact ⟨hout, hconn, .inr ⟨c0, rest, rfl, hj, .inl (i2 rfl)⟩⟩
  · right; left
    have hs' : s' = s2.finish (.bool false) := by rw [a5]; rfl
    refine ⟨?_, by rw [hs']; exact a10, .inl hfin⟩
    rw [hs'] at ho
    simpa [State.finish] using ho.symm

/-- The answer to the request with tag 7: UID 5 and a firmware version. -/
def info7 : List UInt8 :=
  [0xc0, 0, 1, 1, 0x23, 0xe3, 0x0a, 0xa3, 7, 0x20, 0, 0, 8, 0, 0, 0, 0, 0, 0, 0, 5, 0x20, 2, 0, 0x11, 1, 1, 0, 0,
    0x61, 0x70, 0x70, 0x20, 0x20, 0x20, 0x31, 0x32, 0x33, 0x34, 0x35, 0x36, 0x37]

/-- Only the UID (final, and with more to come); only the firmware version; a UID of four bytes. -/
def uid7 : List UInt8 :=
  [0xc0, 0, 1, 1, 0xe, 0x33, 0x8a, 0xa3, 7, 0x20, 0, 0, 8, 0, 0, 0, 0, 0, 0, 0, 5]
def uidMore7 : List UInt8 :=
  [0xc0, 0, 1, 1, 0xe, 0x64, 0xf4, 0x23, 7, 0x20, 0, 0, 8, 0, 0, 0, 0, 0, 0, 0, 5]
def firmware7 : List UInt8 :=
  [0xc0, 0, 1, 1, 0x17, 0x39, 0x7c, 0xa3, 7, 0x20, 2, 0, 0x11, 1, 1, 0, 0, 0x61, 0x70, 0x70, 0x20, 0x20, 0x20,
    0x31, 0x32, 0x33, 0x34, 0x35, 0x36, 0x37]
def short7 : List UInt8 := [0xc0, 0, 1, 1, 0xa, 0x9e, 0xaf, 0xa3, 7, 0x20, 0, 0, 4, 0, 0, 0, 5]

/-- `connect` with request tag 7, and these bytes arriving. -/
def connect7 (bytes : List UInt8) : List Event :=
  [.call (.connect true 7)] ++ mains 5 ++ [.rx bytes] ++ reads 5 ++ [.main]

example : ((init plain).run (connect7 info7)).map (fun s => (s.outcomes, s.connected, s.uid)) =
    some ([.bool true], true, some 5) ∧ Calm (init plain) (connect7 info7) := by decide +kernel

example : ((init plain).run (connect7 uid7)).map (fun s => (s.outcomes, s.connected, s.uid)) =
    some ([.bool false], false, some 5) ∧ Calm (init plain) (connect7 uid7) := by decide +kernel

example : ((init plain).run (connect7 short7)).map (fun s => (s.outcomes, s.connected, s.uid)) =
    some ([.raised .structError], false, none) ∧ Calm (init plain) (connect7 short7) := by decide +kernel

/-- C50 is false for a second attempt: the node answered the first with the UID only (connect returned False)
and the second with the firmware version only; connect returns True. -/
theorem C50_refuted_second : ∃ s, (init plain).run (connect7 uid7 ++ connect7 firmware7) = some s ∧
    s.outcomes = [.bool false, .bool true] ∧ s.connected = true := by
  obtain ⟨s, h, hs⟩ := Option.map_eq_some_iff.1 (show ((init plain).run
    (connect7 uid7 ++ connect7 firmware7)).map (fun s => (s.outcomes, s.connected)) =
    some ([.bool false, .bool true], true) by decide +kernel)
  simp only [Prod.mk.injEq] at hs
  exact ⟨s, h, hs⟩

/-- C50 is false for an answer in two messages: only the first message is looked at, connect returns False. -/
theorem C50_refuted_two_messages : ∃ s, (init plain).run ([.call (.connect true 7)] ++ mains 5 ++
      [.rx (uidMore7 ++ firmware7)] ++ reads 9 ++ [.main]) = some s ∧
    s.outcomes = [.bool false] ∧ s.connected = false := by
  obtain ⟨s, h, hs⟩ := Option.map_eq_some_iff.1 (show ((init plain).run ([.call (.connect true 7)] ++ mains 5 ++
      [.rx (uidMore7 ++ firmware7)] ++ reads 9 ++ [.main])).map (fun s => (s.outcomes, s.connected)) =
    some ([.bool false], false) by decide +kernel)
  simp only [Prod.mk.injEq] at hs
  exact ⟨s, h, hs⟩

/-- A connected modem is not asked again; the result is None, not True. -/
theorem C50_again {s s' : State} {checkAlive : Bool} {rand : UInt8} (hc : s.connected = true)
    (h : s.step (.call (.connect checkAlive rand)) = some s') :
    s'.outcomes = s.outcomes ++ [.none] ∧ s'.connected = true ∧ s'.written = s.written := by
  simp only [State.step] at h
  split at h <;> cases h
  simp [State.startCall, hc, State.finish]

example : ((init plain).run (connect7 info7 ++ [.call (.connect true 8)])).map (fun s => s.outcomes) =
    some [.bool true, .none] := by decide +kernel

/-- In every interleaving: a modem is connected only if it skips ALP parsing, or `connect` was called without the
check, or a UID and a firmware version are known. -/
theorem C50_connected {config : Config} {es : List Event} {s : State}
    (h : (init config).run es = some s) (hc : s.connected = true) :
    config.skip = true ∨ (∃ rand, Event.call (.connect false rand) ∈ es) ∨
      s.uid.isSome = true ∧ s.firmwareVersion.isSome = true := by
  have hi := info_run (B := config.skip = true ∨ ∃ rand, Event.call (.connect false rand) ∈ es)
    (init_info _ config) (init_ok config) (fun h => .inl h) (fun r hr => .inr ⟨r, hr⟩) h
  rcases hi.connected hc with (h | h) | h
  · exact .inl h
  · exact .inr (.inl h)
  · exact .inr (.inr h)

example : ((init plain).run (connect7 info7)).map (fun s => (s.connected, s.uid, s.firmwareVersion.isSome)) =
    some (true, some 5, true) := by decide +kernel

/-- In every interleaving: the UID and the firmware version are contents that the node sent. -/
theorem C50_sources {config : Config} {es : List Event} {s : State}
    (h : (init config).run es = some s) :
    (∀ u, s.uid = some u → ∃ t c a, (t, Msg.command c) ∈ s.received ∧ a ∈ c.actions ∧ ReturnsUid a u) ∧
    ∀ f, s.firmwareVersion = some f →
      ∃ t c a, (t, Msg.command c) ∈ s.received ∧ a ∈ c.actions ∧ ReturnsFirmware a f := by
  have hi := info_run (B := True) (init_info _ config) (init_ok config) (fun _ => trivial)
    (fun _ _ => trivial) h
  have key : ∀ p, Answered s p → ∃ t c a, (t, Msg.command c) ∈ s.received ∧ a ∈ c.actions ∧ p a := by
    rintro p ⟨n, c, hc, a, ha, hp⟩
    have := ((C44_order h).2.2.1 n).subset (List.mem_map_of_mem (f := Msg.command) hc)
    obtain ⟨⟨t, m⟩, hm, rfl⟩ := List.mem_map.1 this
    exact ⟨t, c, a, hm, ha, hp⟩
  exact ⟨fun u hu => key _ (hi.uid u hu), fun f hf => key _ (hi.firmware f hf)⟩

/-- The answer to the connection command returns the UID. -/
example : ((init plain).run (connect7 uid7)).map (fun s => (s.uid, s.received.length)) = some (some 5, 1) := by
  decide +kernel

/-- In every interleaving: while the modem is not connected the callback is not called, and what it is called with
afterwards was received after, or was still waiting then. -/
theorem C50_callback {config : Config} {es es' : List Event} {s s' : State}
    (h : (init config).run es = some s) (hc : s.connected = false) (h' : s.run es' = some s') :
    s.called = [] ∧ ∃ new, s'.received = s.received ++ new ∧
      s'.called.Sublist ((pending s.reader ++ new).map Prod.snd) := by
  have hi := info_run (B := True) (init_info _ config) (init_ok config) (fun _ => trivial)
    (fun _ _ => trivial) h
  obtain ⟨h1, -⟩ := hi.called hc
  refine ⟨h1, ?_⟩
  obtain ⟨log, hl⟩ := C44_between h h'
  obtain ⟨new, g1, g2⟩ := hl.messages
  refine ⟨new, g1, ?_⟩
  rw [hl.called, h1, List.nil_append, ← g2, List.map_append]
  exact (toSink_sublist log _).trans (List.sublist_append_left _ _)

example : ((init ⟨false, true, false⟩).run ([.rx final9] ++ reads 5 ++ connect7 info7 ++ [.rx final9] ++ reads 4)).map
    (fun s => (s.called, s.unsolicited)) =
    some ([.command cFinal9], [[.command cFinal9]]) := by decide +kernel

end Verif.Modem
