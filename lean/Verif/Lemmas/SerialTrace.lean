import Verif.Lemmas.Serial

/-! The run of the serial parser over a buffer, without the counters. -/

namespace Verif.Serial

open Verif

/-- `e.args[0]` fails. -/
def noArg : PyErr → Bool
  | .assertion false => true
  | _ => false

/-- What one attempt makes of a buffer. -/
inductive Front
  | need
  | bad (e : PyErr) (pos : Nat)
  | escape
  | got (t : Int) (m : Msg) (k : Nat)

/-- What one attempt makes of a buffer. -/
def front (skip : Bool) (b : List UInt8) : Front :=
  match view b with
  | .short => .need
  | .nosync pos => .bad .parseError pos
  | .crcBad _ => .bad .parseError 56
  | .valid _ t l rest =>
    match body skip l t.toNat ⟨56, bytesToBits rest⟩ with
    | .ok m s => .got t.toNat m (s.pos / 8)
    | .err .readError _ => .need
    | .err (.assertion false) _ => .escape
    | .err e s => .bad e s.pos

/-- The counter seen by the bookkeeping. -/
def counted (b : List UInt8) : Option UInt8 :=
  match view b with
  | .crcBad c => some c
  | .valid c _ _ _ => some c
  | _ => none

/-- The bookkeeping. -/
def Parser.countO (p : Parser) : Option UInt8 → Parser
  | some c => p.count c.toNat
  | none => p

/-- Reading the message from an aligned position. -/
theorem body_spec (skip : Bool) (l : Nat) (t : Int) (rest : List UInt8) :
    match body skip l t ⟨56, bytesToBits rest⟩ with
    | .ok m s' => ∃ d r, rest = d ++ r ∧ s' = ⟨8 * (7 + d.length), bytesToBits r⟩ ∧
        ∀ r', body skip l t ⟨56, bytesToBits (d ++ r')⟩ =
          .ok m ⟨8 * (7 + d.length), bytesToBits r'⟩
    | .err e s' => e ≠ .nonTermination ∧ (e ≠ .readError → ∀ more, ∃ s'',
        body skip l t ⟨56, bytesToBits (rest ++ more)⟩ = .err e s'' ∧ s''.pos = s'.pos) := by
  have hbytes : ∀ f : List UInt8 → Msg,
      match (P.bytes l >>= fun b => (Pure.pure (f b) : P Msg)) ⟨56, bytesToBits rest⟩ with
      | .ok m s' => ∃ d r, rest = d ++ r ∧ s' = ⟨8 * (7 + d.length), bytesToBits r⟩ ∧
          ∀ r', (P.bytes l >>= fun b => (Pure.pure (f b) : P Msg)) ⟨56, bytesToBits (d ++ r')⟩ =
            .ok m ⟨8 * (7 + d.length), bytesToBits r'⟩
      | .err e s' => e ≠ .nonTermination ∧ (e ≠ .readError → ∀ more, ∃ s'',
          (P.bytes l >>= fun b => (Pure.pure (f b) : P Msg)) ⟨56, bytesToBits (rest ++ more)⟩ =
            .err e s'' ∧ s''.pos = s'.pos) := by
    intro f
    by_cases hl : l ≤ rest.length
    · rw [P.bind_apply, bytes_take _ _ _ hl]
      refine ⟨rest.take l, rest.drop l, by simp, ?_, fun r' => ?_⟩
      · simp [hl]; omega
      · rw [P.bind_apply, bytes_take _ _ _ (by simp; omega)]
        have h1 : (rest.take l).length = l := by simp [hl]
        have h2 : (rest.take l ++ r').take l = rest.take l := List.take_left' h1
        have h3 : (rest.take l ++ r').drop l = r' := List.drop_left' h1
        rw [h2, h3, h1]
        have : 56 + 8 * l = 8 * (7 + l) := by omega
        rw [this]
        rfl
    · rw [P.bind_apply, bytes_short _ _ _ (by omega)]
      exact ⟨by simp, fun h => absurd rfl h⟩
  unfold body
  by_cases h5 : t = 5
  · simp only [h5, if_true]
    cases rest with
    | nil => exact ⟨by simp, fun h => absurd rfl h⟩
    | cons x rest =>
      rw [P.bind_apply, uint8_cons]
      refine ⟨[x], rest, rfl, rfl, fun r' => ?_⟩
      rw [List.singleton_append, P.bind_apply, uint8_cons]
      rfl
  · simp only [h5, if_false]
    by_cases h4 : t = 4
    · simp only [h4, if_true]
      exact hbytes _
    · simp only [h4, if_false]
      cases skip with
      | true => exact hbytes _
      | false =>
        simp only [Bool.false_eq_true, if_false]
        have hsp := AlpParser.parse_spec l ⟨56, bytesToBits rest⟩ (by norm_num)
        rw [P.bind_apply]
        cases hp : AlpParser.parse l ⟨56, bytesToBits rest⟩ with
        | ok c s' =>
          rw [hp] at hsp
          obtain ⟨d, e1, e2, e3, -, e5⟩ := hsp
          obtain ⟨pos', r0⟩ := s'
          simp only at e1 e2
          obtain ⟨hb, hl⟩ := bitsToBytes_spec d (d.length / 8) (by omega)
          set db := bitsToBytes d with hdb
          have hdl : d.length = 8 * db.length := by omega
          have hlen := congrArg List.length e1
          rw [bytesToBits_length, List.length_append] at hlen
          have hrest : rest = db ++ rest.drop db.length := by
            have : bytesToBits (rest.take db.length) = bytesToBits db := by
              rw [hb]
              have h2 : bytesToBits rest = bytesToBits (rest.take db.length) ++
                  bytesToBits (rest.drop db.length) := by
                rw [← bytesToBits_append, List.take_append_drop]
              rw [h2] at e1
              exact List.append_inj_left e1 (by
                rw [bytesToBits_length, List.length_take]; omega)
            have := bytesToBits_inj this
            conv_lhs => rw [← List.take_append_drop db.length rest, this]
          refine ⟨db, rest.drop db.length, hrest, ?_, fun r' => ?_⟩
          · have : bytesToBits (rest.drop db.length) = r0 := by
              rw [hrest, bytesToBits_append, hb] at e1
              exact List.append_cancel_left e1
            rw [this, e2, hdl]
            congr 1
            omega
          · have := e5 56 (bytesToBits r') (by norm_num)
            rw [P.bind_apply, bytesToBits_append, hb, this, hdl]
            have : 56 + 8 * db.length = 8 * (7 + db.length) := by omega
            rw [this]
            rfl
        | err e s' =>
          rw [hp] at hsp
          obtain ⟨d, e1, e2, e3, e4⟩ := hsp
          refine ⟨?_, fun hne more => ?_⟩
          · rcases e3 with h | h | h | h | h <;> rw [h] <;> simp
          · refine ⟨⟨s'.pos, s'.rest ++ bytesToBits more⟩, ?_, rfl⟩
            simp only at e1 e2
            rw [P.bind_apply, bytesToBits_append, e1, List.append_assoc, e4 hne 56 _ (by norm_num), e2]

theorem view_ne_nil {b : List UInt8} (h : view b ≠ .short) : b ≠ [] := by
  rintro rfl; exact h rfl

/-- A delivered message accounts for at least the 7 header bytes and at most the buffer. -/
theorem front_got {skip : Bool} {b : List UInt8} {t : Int} {m : Msg} {k : Nat}
    (h : front skip b = .got t m k) : 7 ≤ k ∧ k ≤ b.length := by
  unfold front at h
  split at h
  · cases h
  · cases h
  · cases h
  · next c t' l rest hv =>
    obtain ⟨-, -, hb⟩ := view_valid.1 hv
    have hs := body_spec skip l t'.toNat rest
    split at h
    · next m' s' hbody =>
      rw [hbody] at hs
      obtain ⟨d, r, rfl, rfl, -⟩ := hs
      cases h
      have := congrArg List.length hb
      simp only [List.length_append, List.length_cons, List.length_nil] at this
      simp only
      omega
    all_goals cases h

/-- Outcomes other than waiting are not changed by more bytes. -/
theorem front_append (skip : Bool) (b x : List UInt8) :
    match front skip b with
    | .need => True
    | .bad e pos => front skip (b ++ x) = .bad e pos ∧ e ≠ .readError
    | .escape => front skip (b ++ x) = .escape
    | .got t m k => front skip (b ++ x) = .got t m k := by
  have hv := view_append b x
  unfold front
  cases h : view b with
  | short => trivial
  | nosync pos => rw [h] at hv; simp only [hv]; simp
  | crcBad c => rw [h] at hv; simp only [hv]; simp
  | valid c t l rest =>
    rw [h] at hv
    simp only [hv]
    have hs := body_spec skip l t.toNat rest
    cases hb : body skip l t.toNat ⟨56, bytesToBits rest⟩ with
    | ok m s' =>
      rw [hb] at hs
      obtain ⟨d, r, rfl, rfl, hr⟩ := hs
      simp only [List.append_assoc, hr]
    | err e s' =>
      rw [hb] at hs
      obtain ⟨-, hr⟩ := hs
      cases e with
      | readError => trivial
      | assertion a =>
        obtain ⟨s'', h1, h2⟩ := hr (by simp) x
        cases a
        · simp only [h1]
        · simp only [h1, h2]; simp
      | _ =>
        obtain ⟨s'', h1, h2⟩ := hr (by simp) x
        simp only [h1, h2]; simp

theorem step_front (p : Parser) :
    p.step = match front p.skipAlpParsing p.buffer with
      | .need => (p.countO (counted p.buffer), .wait)
      | .bad e pos => ({ p.countO (counted p.buffer) with
          buffer := (skipBadBufferContent p.buffer).1 },
          .bad ⟨e, p.buffer, pos, (skipBadBufferContent p.buffer).2⟩)
      | .escape => (p.countO (counted p.buffer), .escape .indexError)
      | .got t m k => ({ p.countO (counted p.buffer) with buffer := p.buffer.drop k },
          .got t m (8 * k)) := by
  have hh := header_view p
  have hbuf : ∀ c, (p.count c).buffer = p.buffer := by
    intro c; unfold Parser.count; simp only; (repeat' split) <;> rfl
  have hskip : ∀ c, (p.count c).skipAlpParsing = p.skipAlpParsing := by
    intro c; unfold Parser.count; simp only; (repeat' split) <;> rfl
  unfold Parser.step Parser.attempt front counted
  cases h : view p.buffer with
  | short =>
    rw [h] at hh
    obtain ⟨s, hs⟩ := hh
    simp only [hs]
    rfl
  | nosync pos =>
    rw [h] at hh
    obtain ⟨s, hp, hs⟩ := hh
    simp only [hs, hp]
    rfl
  | crcBad c =>
    rw [h] at hh
    obtain ⟨s, hp, hs⟩ := hh
    simp only [hs, hp, hbuf]
    rfl
  | valid c t l rest =>
    rw [h] at hh
    simp only [hh, hskip]
    have hsp := body_spec p.skipAlpParsing l t.toNat rest
    cases hb : body p.skipAlpParsing l t.toNat ⟨56, bytesToBits rest⟩ with
    | ok m s =>
      rw [hb] at hsp
      obtain ⟨d, r, rfl, rfl, -⟩ := hsp
      simp only [hbuf, Parser.countO]
      congr 2
      omega
    | err e s =>
      cases e with
      | assertion a => cases a <;> simp only [hbuf, Parser.countO]
      | _ => simp only [hbuf, Parser.countO]

/-- Something reported by the parser: a message taking `k` bytes, or an error. -/
inductive Ev
  | msg (t : Int) (m : Msg) (k : Nat)
  | err (i : ErrorInfo)

/-- A whole run over a buffer. `counts` are the arguments of the counter bookkeeping. -/
structure Trace where
  evs : List Ev
  counts : List (Option UInt8)
  rest : List UInt8
  escaped : Bool

/-- A run over a buffer. -/
def trace (skip : Bool) (b : List UInt8) : Trace :=
  if hb : b = [] then ⟨[], [], [], false⟩
  else match front skip b with
    | .need => ⟨[], [counted b], b, false⟩
    | .escape => ⟨[], [counted b], b, true⟩
    | .bad e pos =>
      let T := trace skip (skipBadBufferContent b).1
      ⟨.err ⟨e, b, pos, (skipBadBufferContent b).2⟩ :: T.evs, counted b :: T.counts, T.rest,
        T.escaped⟩
    | .got t m k =>
      if 0 < k then
        let T := trace skip (b.drop k)
        ⟨.msg t m k :: T.evs, counted b :: T.counts, T.rest, T.escaped⟩
      else ⟨[], [], b, true⟩
termination_by b.length
decreasing_by
  · exact skip_length hb
  · have := List.length_pos_iff.mpr hb
    simp only [List.length_drop]; omega

theorem trace_nil (skip : Bool) : trace skip [] = ⟨[], [], [], false⟩ := by rw [trace]; simp

theorem trace_need {skip : Bool} {b : List UInt8} (hb : b ≠ []) (h : front skip b = .need) :
    trace skip b = ⟨[], [counted b], b, false⟩ := by rw [trace]; simp [hb, h]

theorem trace_escape {skip : Bool} {b : List UInt8} (hb : b ≠ []) (h : front skip b = .escape) :
    trace skip b = ⟨[], [counted b], b, true⟩ := by rw [trace]; simp [hb, h]

theorem trace_bad {skip : Bool} {b : List UInt8} {e : PyErr} {pos : Nat} (hb : b ≠ [])
    (h : front skip b = .bad e pos) :
    trace skip b =
      ⟨.err ⟨e, b, pos, (skipBadBufferContent b).2⟩ ::
        (trace skip (skipBadBufferContent b).1).evs,
        counted b :: (trace skip (skipBadBufferContent b).1).counts,
        (trace skip (skipBadBufferContent b).1).rest,
        (trace skip (skipBadBufferContent b).1).escaped⟩ := by
  rw [trace]; simp [hb, h]

theorem trace_got {skip : Bool} {b : List UInt8} {t : Int} {m : Msg} {k : Nat}
    (h : front skip b = .got t m k) :
    trace skip b = ⟨.msg t m k :: (trace skip (b.drop k)).evs,
      counted b :: (trace skip (b.drop k)).counts, (trace skip (b.drop k)).rest,
      (trace skip (b.drop k)).escaped⟩ := by
  obtain ⟨h7, hk⟩ := front_got h
  have hb : b ≠ [] := by rintro rfl; simp at hk; omega
  rw [trace]
  simp [hb, h, show 0 < k by omega]

/-- The delivered messages. -/
def Ev.msgs : List Ev → List (Int × Msg)
  | [] => []
  | .msg t m _ :: l => (t, m) :: msgs l
  | .err _ :: l => msgs l

/-- The reported errors. -/
def Ev.errs : List Ev → List ErrorInfo
  | [] => []
  | .msg _ _ _ :: l => errs l
  | .err i :: l => i :: errs l

/-- The bytes taken by the delivered messages. -/
def Ev.taken : List Ev → Nat
  | [] => 0
  | .msg _ _ k :: l => k + taken l
  | .err _ :: l => taken l

/-- The bookkeeping of a run. -/
def Parser.countAll (p : Parser) (l : List (Option UInt8)) : Parser := l.foldl Parser.countO p

theorem count_with (p : Parser) (b : List UInt8) (c : Int) :
    { p with buffer := b }.count c = { p.count c with buffer := b } := by
  unfold Parser.count
  simp only
  (repeat' split) <;> rfl

theorem countO_with (p : Parser) (b : List UInt8) (c : Option UInt8) :
    { p with buffer := b }.countO c = { p.countO c with buffer := b } := by
  cases c with
  | none => rfl
  | some c => exact count_with p b _

theorem countAll_with (p : Parser) (b : List UInt8) (l : List (Option UInt8)) :
    { p with buffer := b }.countAll l = { p.countAll l with buffer := b } := by
  induction l generalizing p with
  | nil => rfl
  | cons c l ih =>
    simp only [Parser.countAll, List.foldl_cons] at ih ⊢
    rw [countO_with, ih]

theorem countO_skip (p : Parser) (c : Option UInt8) :
    (p.countO c).skipAlpParsing = p.skipAlpParsing ∧ (p.countO c).buffer = p.buffer ∧
    (p.countO c).upCounter = p.upCounter := by
  cases c with
  | none => exact ⟨rfl, rfl, rfl⟩
  | some c =>
    simp only [Parser.countO, Parser.count]
    (repeat' split) <;> exact ⟨rfl, rfl, rfl⟩

theorem countAll_skip (p : Parser) (l : List (Option UInt8)) :
    (p.countAll l).skipAlpParsing = p.skipAlpParsing ∧ (p.countAll l).buffer = p.buffer ∧
    (p.countAll l).upCounter = p.upCounter := by
  induction l generalizing p with
  | nil => exact ⟨rfl, rfl, rfl⟩
  | cons c l ih =>
    have h1 := ih (p.countO c)
    have h2 := countO_skip p c
    simp only [Parser.countAll, List.foldl_cons] at h1 ⊢
    rw [h1.1, h1.2.1, h1.2.2]
    exact h2

/-- The outcome of a `parse` call described by a run. -/
def finish (p : Parser) (cmds : List (Int × Msg)) (parsed : Nat) (errors : List ErrorInfo)
    (T : Trace) : Parser × Except PyErr Output :=
  ({ p.countAll T.counts with buffer := T.rest },
    if T.escaped then .error .indexError
    else .ok ⟨cmds ++ Ev.msgs T.evs, parsed + 8 * Ev.taken T.evs, T.rest.length * 8,
      errors ++ Ev.errs T.evs⟩)

theorem loop_trace (n : Nat) : ∀ (p : Parser) (es : List ErrorInfo) (bound : Nat)
    (cmds : List (Int × Msg)) (parsed : Nat) (errors : List ErrorInfo),
    p.buffer.length = n → p.buffer.length ≤ bound →
    (match p.parseOne es with
      | (p', .error e) => (p', .error e)
      | (p', .ok ⟨none, _, es⟩) => (p', .ok ⟨cmds, parsed, p'.buffer.length * 8, errors ++ es⟩)
      | (p', .ok ⟨some c, k, es⟩) =>
        if p'.buffer.length < bound then
          p'.parseLoop (cmds ++ [c]) (parsed + k) (errors ++ es)
        else (p', .error .nonTermination)) =
    finish p cmds parsed (errors ++ es) (trace p.skipAlpParsing p.buffer) := by
  induction n using Nat.strong_induction_on with
  | _ n ih =>
    intro p es bound cmds parsed errors hn hbound
    by_cases hb : p.buffer = []
    · have h1 : p.parseOne es = (p, .ok ⟨none, 0, es⟩) := by
        rw [Parser.parseOne]; simp [hb]
      rw [h1]
      simp only [finish, hb, trace_nil, Ev.msgs, Ev.taken, Ev.errs, Parser.countAll,
        List.foldl_nil, List.append_nil]
      obtain ⟨b, _, _, _, _⟩ := p
      simp only at hb
      subst hb
      rfl
    · have hst := step_front p
      have hsk := countO_skip p (counted p.buffer)
      have hone : p.parseOne es = match p.step with
          | (p, .got t m n) => (p, .ok ⟨some (t, m), n, es⟩)
          | (p, .wait) => (p, .ok ⟨none, 0, es⟩)
          | (p', .bad i) => p'.parseOne (es ++ [i])
          | (p, .escape e) => (p, .error e) := by
        rw [Parser.parseOne]
        simp only [hb, dite_false]
        cases p.step with
        | mk p' s => cases s <;> rfl
      rw [hone, hst]
      cases hf : front p.skipAlpParsing p.buffer with
      | need =>
        simp only [trace_need hb hf, finish, Ev.msgs, Ev.taken, Ev.errs, Parser.countAll,
          List.foldl_cons, List.foldl_nil, List.append_nil, Nat.mul_zero, Nat.add_zero,
          Bool.false_eq_true, if_false, hsk.2.1]
        congr 1
        have := hsk.2.1
        generalize p.countO (counted p.buffer) = q at this
        obtain ⟨_, _, _, _, _⟩ := q
        simp only at this
        subst this
        rfl
      | escape =>
        simp only [trace_escape hb hf, finish, Parser.countAll,
          List.foldl_cons, List.foldl_nil, if_true]
        congr 1
        have := hsk.2.1
        generalize p.countO (counted p.buffer) = q at this
        obtain ⟨_, _, _, _, _⟩ := q
        simp only at this
        subst this
        rfl
      | bad e pos =>
        have hlt := skip_length hb
        simp only
        rw [ih _ (by rw [← hn]; exact hlt) _ _ bound _ _ _ rfl (by simp only; omega)]
        simp only [hsk.1, trace_bad hb hf, finish, Ev.msgs, Ev.taken, Ev.errs, Parser.countAll,
          List.foldl_cons]
        have := countAll_with (p.countO (counted p.buffer)) (skipBadBufferContent p.buffer).1
          (trace p.skipAlpParsing (skipBadBufferContent p.buffer).1).counts
        simp only [Parser.countAll, hsk.1] at this
        rw [this]
        simp only [hsk.1, List.append_assoc, List.cons_append, List.nil_append]
      | got t m k =>
        obtain ⟨h7, hk⟩ := front_got hf
        have hlt : (p.buffer.drop k).length < p.buffer.length := by
          simp only [List.length_drop]; omega
        simp only
        rw [if_pos (by omega), Parser.parseLoop]
        refine Eq.trans (Eq.trans ?_ (ih _ (by rw [← hn]; exact hlt)
          { p.countO (counted p.buffer) with buffer := p.buffer.drop k } [] _ (cmds ++ [(t, m)])
          (parsed + 8 * k) (errors ++ es) rfl (le_refl _))) ?_
        · rfl
        simp only [hsk.1, trace_got hf, finish, Ev.msgs, Ev.taken, Ev.errs, Parser.countAll,
          List.foldl_cons]
        have := countAll_with (p.countO (counted p.buffer)) (p.buffer.drop k)
          (trace p.skipAlpParsing (p.buffer.drop k)).counts
        simp only [Parser.countAll, hsk.1] at this
        rw [this]
        simp only [hsk.1, List.append_assoc, List.cons_append, List.nil_append, List.append_nil,
          Nat.mul_add, Nat.add_assoc]

/-- `parse` in terms of the run over the buffer. -/
theorem parse_trace (p : Parser) (msg : List UInt8) :
    p.parse msg = finish p [] 0 [] (trace p.skipAlpParsing (p.buffer ++ msg)) := by
  unfold Parser.parse Parser.parseBuffer
  rw [Parser.parseLoop]
  have := loop_trace _ { p with buffer := p.buffer ++ msg } [] _ [] 0 [] rfl (le_refl _)
  refine Eq.trans (Eq.trans ?_ this) ?_
  · rfl
  simp only [finish]
  have := countAll_with p (p.buffer ++ msg) (trace p.skipAlpParsing (p.buffer ++ msg)).counts
  rw [this]
  rfl

end Verif.Serial
