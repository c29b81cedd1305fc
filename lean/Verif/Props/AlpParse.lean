import Verif.Lemmas.ParseSegs
import Verif.Props.Commands
import Verif.Props.Construct

/-! C24–C27: the ALP parser on arbitrary bytes. -/

namespace Verif

open AlpParser

/-! ## C24 termination, alignment, exact consumption -/

/-- C24: when the parser returns a command, the bytes it consumed are the concatenation of non-empty
pieces, one per parsed action: each piece on its own, whatever follows it, parses to that action and
is consumed exactly. The command is the one built from these actions. At least `n` bytes were
consumed, and no action started at or after byte `n`. In particular the stream is byte aligned. -/
theorem C24_success (bs : List UInt8) (n : Int) (c : Command) (s' : St)
    (h : parse n (stream bs) = .ok c s') :
    ∃ (segs : List (List UInt8 × Option Action)) (rest : List UInt8),
      bs = (segs.map Prod.fst).flatten ++ rest ∧
      s' = ⟨8 * (segs.map Prod.fst).flatten.length, bytesToBits rest⟩ ∧
      (∀ x ∈ segs, x.1 ≠ [] ∧ ∀ following, parseAlpAction (stream (x.1 ++ following)) =
        .ok x.2 ⟨8 * x.1.length, bytesToBits following⟩) ∧
      n ≤ (segs.map Prod.fst).flatten.length ∧
      (∀ init last, segs = init ++ [last] → ((init.map Prod.fst).flatten.length : Int) < n) ∧
      Command.new (segs.map Prod.snd) false none true 0 = .ok c := by
  obtain ⟨segs, rest, e1, e2, e3, e4, e5, e6⟩ := parse_bytes h
  refine ⟨segs, rest, e1, e2, ?_, e4, e5, e6⟩
  intro x hx
  obtain ⟨h1, h2⟩ := e3 x hx
  refine ⟨h2, fun following => ?_⟩
  rw [stream, bytesToBits_append, h1]
  simp

/-- Two actions, then bytes that are left alone. -/
example : ∃ c s', parse 6 (stream [1, 0x40, 0, 8, 0x23, 77, 9, 9]) = .ok c s' ∧ s'.pos = 48 ∧
    c.actions = [.regular false false (.readFileData ⟨⟨0x40, ⟨0⟩⟩, ⟨8⟩⟩)] ∧ c.tagId = some 77 :=
  ⟨_, _, rfl, by decide, by decide, by decide⟩

/-- C24: the parser never runs forever and never reads backwards: whatever the bytes and the length,
it either returns or raises one of the exceptions of C26, having consumed a (possibly empty) initial
part of the stream. -/
theorem C24_terminates (bs : List UInt8) (n : Int) :
    (∃ c k, parse n (stream bs) = .ok c ⟨k, (bytesToBits bs).drop k⟩ ∧ k ≤ 8 * bs.length) ∨
    (∃ e k, parse n (stream bs) = .err e ⟨k, (bytesToBits bs).drop k⟩ ∧ k ≤ 8 * bs.length ∧
      e ≠ .nonTermination) := by
  have hsp := parse_spec n (stream bs) rfl
  cases h : parse n (stream bs) with
  | ok c s' =>
    rw [h] at hsp
    obtain ⟨d, f1, f2, -⟩ := hsp
    obtain ⟨p, r⟩ := s'
    have f1 : bytesToBits bs = d ++ r := f1
    have f2 : p = 0 + d.length := f2
    have hl := congrArg List.length f1
    rw [bytesToBits_length, List.length_append] at hl
    exact .inl ⟨c, p, by rw [f1, f2]; simp, by omega⟩
  | err e s' =>
    rw [h] at hsp
    obtain ⟨d, f1, f2, f3, -⟩ := hsp
    obtain ⟨p, r⟩ := s'
    have f1 : bytesToBits bs = d ++ r := f1
    have f2 : p = 0 + d.length := f2
    have hl := congrArg List.length f1
    rw [bytesToBits_length, List.length_append] at hl
    refine .inr ⟨e, p, by rw [f1, f2]; simp, by omega, ?_⟩
    rcases f3 with h | h | h | h | h <;> rw [h] <;> decide

/-- A truncated command: the first action is read, the second breaks off. -/
example : ∃ e k, parse 9 (stream [1, 0x40, 0, 8, 0x20, 0x40]) = .err e ⟨k, (bytesToBits [1, 0x40, 0, 8, 0x20, 0x40]).drop k⟩ ∧
    k = 48 := ⟨.readError, 48, by decide +kernel, rfl⟩

/-- C24: a length of zero or less yields the empty command and consumes nothing. -/
theorem C24_nonpositive (bs : List UInt8) (n : Int) (hn : n ≤ 0) :
    parse n (stream bs) = .ok ⟨[], none, false, none, true, false, none⟩ (stream bs) := by
  have h : parseActions n (stream bs) = .ok [] (stream bs) := by
    unfold parseActions
    split
    · unfold parseLoop
      rw [if_neg (by omega)]
      rfl
    · rfl
  unfold parse
  rw [P.bind_apply, h]
  rfl

example : parse (-3) (stream [1, 2]) = .ok ⟨[], none, false, none, true, false, none⟩ (stream [1, 2]) :=
  C24_nonpositive _ _ (by decide)

/-- An exception can leave the stream in the middle of a byte (here after 28 bits), so alignment is
only claimed for successful parses. -/
theorem C24_unaligned_after_exception :
    ∃ s', parse 16 (stream [0x62, 0xD7, 1, 0x10, 0, 0, 0]) = .err .valueError s' ∧
      s'.pos % 8 ≠ 0 := by
  have h : (match parse 16 (stream [0x62, 0xD7, 1, 0x10, 0, 0, 0]) with
    | .ok _ _ => false
    | .err e s => e = .valueError ∧ s.pos % 8 ≠ 0) = true := by decide +kernel
  cases h' : parse 16 (stream [0x62, 0xD7, 1, 0x10, 0, 0, 0]) with
  | ok _ _ => rw [h'] at h; cases h
  | err e s =>
    rw [h'] at h
    obtain ⟨h1, h2⟩ : e = .valueError ∧ s.pos % 8 ≠ 0 := by simpa using h
    subst h1
    exact ⟨s, rfl, h2⟩

/-! ## C25 staying within the declared length -/

/-- C25 is false: a command declared one byte long makes the parser consume two. -/
theorem C25_overrun : ∃ (bs : List UInt8) (c : Command) (s' : St),
    parse 1 (stream bs) = .ok c s' ∧ s'.pos = 16 :=
  ⟨[0x34, 5], _, _, rfl, by decide⟩

/-- C25, exact condition: a successful parse stays within the declared length if and only if the
first `n` bytes alone parse, and then they give the same command; otherwise it consumed more. What
is missing: the inner lengths of the last action are not checked against `n`. -/
theorem C25_exact_iff_partial (bs : List UInt8) (n : Nat) (c : Command) (s' : St)
    (h : parse n (stream bs) = .ok c s') :
    8 * n ≤ s'.pos ∧
    (s'.pos = 8 * n ↔ ∃ d s, parse n (stream (bs.take n)) = .ok d s) ∧
    (s'.pos = 8 * n → parse n (stream (bs.take n)) = .ok c ⟨8 * n, []⟩) := by
  obtain ⟨segs, rest, e1, e2, e3, e4, e5, e6⟩ := parse_bytes h
  subst e2
  have hrun : ∀ following, parse n (stream ((segs.map Prod.fst).flatten ++ following)) =
      .ok c ⟨8 * (segs.map Prod.fst).flatten.length, bytesToBits following⟩ := by
    have hsp := parse_spec n (stream bs) rfl
    rw [h] at hsp
    obtain ⟨d, f1, f2, -, -, f3⟩ := hsp
    have f1 : bytesToBits bs = d ++ bytesToBits rest := f1
    rw [e1, bytesToBits_append] at f1
    have := List.append_cancel_right f1
    subst this
    intro following
    rw [stream, bytesToBits_append, f3 0 _ rfl]
    simp
  have hle : n ≤ (segs.map Prod.fst).flatten.length := by exact_mod_cast e4
  have himp : 8 * (segs.map Prod.fst).flatten.length = 8 * n →
      parse n (stream (bs.take n)) = .ok c ⟨8 * n, []⟩ := by
    intro hn
    have hn : (segs.map Prod.fst).flatten.length = n := by omega
    have ht : bs.take n = (segs.map Prod.fst).flatten := by
      rw [e1, ← hn]; simp
    rw [ht]
    have := hrun []
    rw [List.append_nil, hn] at this
    exact this
  refine ⟨by simp only; omega, ⟨fun hn => ⟨_, _, himp hn⟩, ?_⟩, himp⟩
  rintro ⟨d, s, hd⟩
  have hsp := parse_spec n (stream (bs.take n)) rfl
  rw [hd] at hsp
  obtain ⟨x, f1, f2, f0, f4, f3⟩ := hsp
  have f1 : bytesToBits (bs.take n) = x ++ s.rest := f1
  have hxl := congrArg List.length f1
  rw [bytesToBits_length, List.length_append, List.length_take] at hxl
  have hfull := f3 0 (s.rest ++ bytesToBits (bs.drop n)) rfl
  rw [← List.append_assoc, ← f1, ← bytesToBits_append, List.take_append_drop] at hfull
  have h' : parse n ⟨0, bytesToBits bs⟩ = _ := h
  rw [hfull] at h'
  injection h' with h1 h2
  have := congrArg St.pos h2
  simp only at this ⊢
  omega

/-- Both cases occur. -/
example : (∃ d s, parse (4 : Nat) (stream ([1, 0x40, 0, 8, 9].take 4)) = .ok d s) ∧
    ¬ ∃ d s, parse (1 : Nat) (stream ([0x34, 5].take 1)) = .ok d s := by
  refine ⟨⟨_, _, rfl⟩, ?_⟩
  rintro ⟨d, s, h⟩
  cases h

/-! ## C26 exceptions -/

/-- C26: the only exceptions are ReadError, ParseError, ValueError, AttributeError and
AssertionError (raised by an `assert` without message). -/
theorem C26_errors (bs : List UInt8) (n : Int) (e : PyErr) (s' : St)
    (h : parse n (stream bs) = .err e s') :
    e = .readError ∨ e = .parseError ∨ e = .valueError ∨ e = .attributeError ∨
      e = .assertion false := by
  have hsp := parse_spec n (stream bs) rfl
  rw [h] at hsp
  obtain ⟨_, _, _, h, _⟩ := hsp
  exact h

/-- Each of the five occurs. -/
example : (∃ s, parse 1 (stream []) = .err .readError s) ∧
    (∃ s, parse 1 (stream [0x3F]) = .err .parseError s) ∧
    (∃ s, parse 1 (stream [0x22]) = .err .valueError s) ∧
    (∃ s, parse 3 (stream [0x62, 0, 0]) = .err .attributeError s) ∧
    (∃ s, parse 2 (stream [0x32, 0]) = .err (.assertion false) s) :=
  ⟨⟨_, rfl⟩, ⟨_, rfl⟩, ⟨_, rfl⟩, ⟨_, rfl⟩, ⟨_, rfl⟩⟩

/-- C26: a success is unchanged when more bytes follow. -/
theorem C26_success_stable (bs more : List UInt8) (n : Int) (c : Command) (s' : St)
    (h : parse n (stream bs) = .ok c s') :
    parse n (stream (bs ++ more)) = .ok c ⟨s'.pos, s'.rest ++ bytesToBits more⟩ := by
  have hsp := parse_spec n (stream bs) rfl
  rw [h] at hsp
  obtain ⟨d, f1, f2, -, -, f3⟩ := hsp
  have f1 : bytesToBits bs = d ++ s'.rest := f1
  have f2 : s'.pos = 0 + d.length := f2
  rw [stream, bytesToBits_append, f1, List.append_assoc, f3 0 _ rfl, f2]

example : ∃ c s', parse 2 (stream [0x34, 7]) = .ok c s' ∧
    parse 2 (stream ([0x34, 7] ++ [1, 2])) = .ok c ⟨s'.pos, s'.rest ++ bytesToBits [1, 2]⟩ :=
  ⟨_, _, rfl, C26_success_stable _ _ _ _ _ rfl⟩

/-- C26: an exception other than ReadError is unchanged when more bytes follow. -/
theorem C26_error_stable (bs more : List UInt8) (n : Int) (e : PyErr) (s' : St)
    (h : parse n (stream bs) = .err e s') (he : e ≠ .readError) :
    parse n (stream (bs ++ more)) = .err e ⟨s'.pos, s'.rest ++ bytesToBits more⟩ := by
  have hsp := parse_spec n (stream bs) rfl
  rw [h] at hsp
  obtain ⟨d, f1, f2, -, f3⟩ := hsp
  have f1 : bytesToBits bs = d ++ s'.rest := f1
  have f2 : s'.pos = 0 + d.length := f2
  rw [stream, bytesToBits_append, f1, List.append_assoc, f3 he 0 _ rfl, f2]

/-- ReadError is not stable: the missing byte makes the parse succeed. -/
example : (∃ s, parse 2 (stream [0x34]) = .err .readError s) ∧
    ∃ c s, parse 2 (stream ([0x34] ++ [7])) = .ok c s ∧ c.tagId = some 7 :=
  ⟨⟨_, rfl⟩, _, _, rfl, rfl⟩

/-! ## C27 re-serialisation -/

/-- C27 is false: a tag is dropped, a parsed forward cannot be serialised at all, an over-long
length field is shortened, and the length byte of an interface status disappears. -/
theorem C27_refuted :
    (∃ c s, parse 2 (stream [0x34, 5]) = .ok c s ∧ bytearray c.iter = .ok []) ∧
    (∃ c s, parse 2 (stream [0x32, 1]) = .ok c s ∧ bytearray c.iter = .error .attributeError) ∧
    (∃ c s, parse 5 (stream [1, 0x40, 0x40, 0, 8]) = .ok c s ∧
      bytearray c.iter = .ok [1, 0x40, 0, 8]) ∧
    (∃ c s, parse 4 (stream [4, 0x40, 0, 0]) = .ok c s ∧ bytearray c.iter = .ok [4]) ∧
    (∃ c s, parse 3 (stream [0x62, 1, 0]) = .ok c s ∧ bytearray c.iter = .error .typeError) :=
  ⟨⟨_, _, rfl, by decide⟩, ⟨_, _, rfl, by decide⟩,
    ⟨_, _, rfl, by decide⟩,
    ⟨⟨[.regular false false (.writeFileData ⟨⟨0x40, ⟨0⟩⟩, ⟨0⟩, []⟩)], none, false, none, true, false,
      none⟩, ⟨32, []⟩, by decide +kernel, by decide⟩,
    ⟨_, _, rfl, by decide⟩⟩

/-- The actions of a command parsed without tag and interface status. -/
theorem parsed_actions {n : Int} {bs : List UInt8} {c : Command} {s' : St}
    (h : parse n (stream bs) = .ok c s') (ht : c.tagId = none) (hs : c.interfaceStatus = none) :
    c = ⟨c.actions, none, false, none, true, false, none⟩ ∧
    ∀ a ∈ c.actions, a.Built ∧ a = a.operation.received a.flags.1 a.flags.2 ∧
      Command.plain a = true := by
  obtain ⟨segs, rest, -, -, e3, -, -, e6⟩ := parse_bytes h
  have hsome : ∀ x ∈ segs.map Prod.snd, x ≠ none := by
    intro x hx hn
    subst hn
    exact C21_none _ _ _ _ _ hx c e6
  obtain ⟨as, has⟩ : ∃ as : List Action, segs.map Prod.snd = as.map some := by
    generalize segs.map Prod.snd = l at hsome
    clear e6
    induction l with
    | nil => exact ⟨[], rfl⟩
    | cons x l ih =>
      obtain ⟨as, ih⟩ := ih fun y hy => hsome y (by simp [hy])
      obtain ⟨a, rfl⟩ := Option.ne_none_iff_exists'.1 (hsome x (by simp))
      exact ⟨a :: as, by simp [ih]⟩
  have hshape : ∀ a ∈ as, Shape a := by
    intro a ha
    have : some a ∈ segs.map Prod.snd := by rw [has]; simpa using ha
    obtain ⟨x, hx, hxa⟩ := List.mem_map.1 this
    have hr := (e3 x hx).1 0 []
    exact parseAlpAction_parsed hr a hxa
  have hw : ∀ a ∈ as, a.isTagAction = true → a.tagValue ≠ none := by
    intro a ha htag
    obtain ⟨-, hsh⟩ := hshape a ha
    rcases hsh with ⟨o, rfl⟩ | hsh
    · cases htag
    · cases a with
      | tagRequest r o => cases o <;> first | (cases hsh; done) | (intro hn; cases hn)
      | tagResponse e x o => cases o <;> first | (cases hsh; done) | (intro hn; cases hn)
      | _ => cases htag
  rw [has] at e6
  by_cases hbad : 2 ≤ (as.filter Action.isInterfaceStatus).length ∨
      2 ≤ (if (none : Option Int) = none then 0 else 1) + (as.filter Action.isTagAction).length
  · rw [C21_refuses as _ _ _ _ hw hbad] at e6
    cases e6
  · obtain ⟨d, hd, g1, g2, g3, g4, g5, g6⟩ := C21_accepts as false none true 0 hw hbad
    rw [hd] at e6
    injection e6 with e6
    subst e6
    have htags : as.filter Action.isTagAction = [] := by
      match hf : as.filter Action.isTagAction with
      | [] => rfl
      | [x] =>
        have hx : x.isTagAction = true := by
          have : x ∈ as.filter Action.isTagAction := by rw [hf]; simp
          exact (List.mem_filter.1 this).2
        cases x with
        | tagRequest r o => exact absurd ht (g5 r o hf).2.1
        | tagResponse e x o => exact absurd ht (g6 e x o hf).2.1
        | _ => cases hx
      | x :: y :: l => simp [hf] at hbad
    obtain ⟨k1, k2, k3, k4⟩ := g4 htags
    constructor
    · obtain ⟨a1, a2, a3, a4, a5, a6, a7⟩ := d
      simp_all
    · intro a ha
      rw [g1, List.mem_filter] at ha
      obtain ⟨hb, hsh⟩ := hshape a ha.1
      refine ⟨hb, ?_⟩
      rcases hsh with ⟨o, rfl⟩ | hsh
      · simp [Action.isInterfaceStatus] at ha
      · refine ⟨hsh, ?_⟩
        obtain ⟨-, ha⟩ := ha
        cases a with
        | status e o => simpa [Action.isInterfaceStatus, Action.isTagAction, Command.plain] using ha
        | tagRequest r o => simp [Action.isTagAction] at ha
        | tagResponse e x o => simp [Action.isTagAction] at ha
        | _ => rfl

/-- C27 for parsed commands without tag and interface status whose actions come back (C19):
serialising the parsed command succeeds, and parsing the result gives the same command again. The
bytes may differ from the received ones only by non-minimal length fields. What is missing: the
commands excluded by the hypotheses (see C27_refuted). -/
theorem C27_reserialise_partial (bs : List UInt8) (n : Int) (c : Command) (s' : St)
    (h : parse n (stream bs) = .ok c s') (ht : c.tagId = none) (hs : c.interfaceStatus = none)
    (ha : ∀ a ∈ c.actions, a.ComesBack) :
    ∃ bs', bytearray c.iter = .ok bs' ∧ ∀ following,
      parse bs'.length (stream (bs' ++ following)) = .ok c ⟨8 * bs'.length, bytesToBits following⟩ := by
  obtain ⟨hc, hact⟩ := parsed_actions h ht hs
  generalize c.actions = as at hc hact ha
  subst hc
  have hact' : ∀ a ∈ as, a.Built ∧ a.Iterable ∧ a.operation.Survives a.flags.1 a.flags.2 := by
    intro a hm
    exact ⟨(hact a hm).1, (C19_action_iff a (hact a hm).1).1 (ha a hm)⟩
  obtain ⟨bss, e, hm, hr⟩ := actions_segs as hact'
  have hrec : as.map (fun a => some (a.operation.received a.flags.1 a.flags.2)) = as.map some :=
    List.map_congr_left fun a hm => by rw [← (hact a hm).2.1]
  refine ⟨(bss.map Prod.fst).flatten, ?_, ?_⟩
  · have : Emits (Command.iter ⟨as, none, false, none, true, false, none⟩)
        ([] ++ [] ++ (bss.map Prod.fst).flatten) := (Emits.nil.append Emits.nil).append e
    simpa [Emits] using this
  · intro following
    have hplain : ∀ a ∈ as, Command.plain a = true := fun a hm => (hact a hm).2.2
    rw [stream, parse_run_bytes bss hr 0 rfl, hm, hrec]
    unfold Command.new
    rw [Command.fold_plain _ _ hplain]
    simp [bind, Except.bind, Command.allSome_map, P.lift]

/-- A received answer with two returned files (no tag, no status). -/
example : ∃ bs', bytearray (Command.iter ⟨[.regular false false (.returnFileHeader
      ⟨0x40, ⟨⟨false, false, true, true, false, true, false, false⟩, ⟨false, .WRITE, .PERMANENT⟩,
        0xFF, 0xFF, 8, 8⟩⟩), .regular true false (.readFileData ⟨⟨3, ⟨70⟩⟩, ⟨1⟩⟩)],
      none, false, none, true, false, none⟩) = .ok bs' := by
  have h : parse 18 (stream [33, 0x40, 0x34, 0x23, 0xFF, 0xFF, 0, 0, 0, 8, 0, 0, 0, 8, 0x81, 3,
      0x40, 70, 1]) = .ok ⟨[.regular false false (.returnFileHeader
      ⟨0x40, ⟨⟨false, false, true, true, false, true, false, false⟩, ⟨false, .WRITE, .PERMANENT⟩,
        0xFF, 0xFF, 8, 8⟩⟩), .regular true false (.readFileData ⟨⟨3, ⟨70⟩⟩, ⟨1⟩⟩)],
      none, false, none, true, false, none⟩ ⟨152, []⟩ := by decide +kernel
  obtain ⟨bs', e, -⟩ := C27_reserialise_partial _ _ _ _ h rfl rfl (by
    obtain ⟨-, hact⟩ := parsed_actions h rfl rfl
    intro a ha
    rw [C19_action_iff a (hact a ha).1]
    simp only [List.mem_cons, List.not_mem_nil, or_false] at ha
    rcases ha with rfl | rfl <;> exact ⟨trivial, trivial⟩)
  exact ⟨bs', e⟩

/-- C27, exact bytes: bytes that are themselves the serialisation of a command (without tag request
and interface status, its actions coming back and not being forwards) are reproduced. -/
theorem C27_same_bytes_partial (d : Command) (bs : List UInt8)
    (hg : d.generateTagRequestAction = false) (hst : d.interfaceStatus = none)
    (hact : ∀ a ∈ d.actions, a.Built ∧ a.ComesBack ∧ ¬ a.operation.isTag ∧
      ∀ x, a.operation ≠ .forward x)
    (hd : bytearray d.iter = .ok bs) :
    ∃ c s, parse bs.length (stream bs) = .ok c s ∧ bytearray c.iter = .ok bs := by
  obtain ⟨bs', c, h1, h2, h3, h4, h5, -⟩ := C20_command_round_trip_partial d
    (fun a ha => ⟨(hact a ha).1, (hact a ha).2.1, (hact a ha).2.2.1⟩)
    (by rw [hg]; intro h; cases h) hst
  rw [hd] at h1
  injection h1 with h1
  subst h1
  have hp := h2 []
  rw [List.append_nil] at hp
  refine ⟨c, _, hp, ?_⟩
  rw [hg] at h5
  obtain ⟨hc, hca⟩ := parsed_actions hp h5 h4
  rw [← hd]
  have hit : c.actions.map Action.iter = d.actions.map Action.iter := by
    have e1 : c.actions.map Action.iter =
        (c.actions.map fun a => (a.operation, a.flags)).map fun x => sent x.2.1 x.2.2 x.1 := by
      rw [List.map_map]
      refine List.map_congr_left fun a ha => ?_
      obtain ⟨k1, k2, -⟩ := hca a ha
      refine a.iter_sent k1 ?_
      have hm : (a.operation, a.flags) ∈ d.actions.map fun a => (a.operation, a.flags) := by
        rw [← h3]; exact List.mem_map_of_mem ha
      obtain ⟨b, hb, hab⟩ := List.mem_map.1 hm
      have hop : b.operation = a.operation := congrArg Prod.fst hab
      have hnf := (hact b hb).2.2.2
      rw [hop] at hnf
      rw [k2]
      cases ho : a.operation <;> simp only [Operation.received, Action.Iterable]
      exact hnf _ ho
    have e2 : d.actions.map Action.iter =
        (d.actions.map fun a => (a.operation, a.flags)).map fun x => sent x.2.1 x.2.2 x.1 := by
      rw [List.map_map]
      refine List.map_congr_left fun a ha => ?_
      obtain ⟨k1, k2, -⟩ := hact a ha
      exact a.iter_sent k1 ((C19_action_iff a k1).1 k2).1
    rw [e1, e2, h3]
  have hgc : c.generateTagRequestAction = false :=
    congrArg Command.generateTagRequestAction hc
  unfold Command.iter
  rw [hg, hst, h4, hgc, hit]
  rfl

/-- The same command as in the previous example. -/
example : ∃ c s, parse 19 (stream [33, 0x40, 0x34, 0x23, 0xFF, 0xFF, 0, 0, 0, 8, 0, 0, 0, 8,
      0x81, 3, 0x40, 70, 1]) = .ok c s ∧ bytearray c.iter = .ok [33, 0x40, 0x34, 0x23, 0xFF, 0xFF, 0,
      0, 0, 8, 0, 0, 0, 8, 0x81, 3, 0x40, 70, 1] := by
  have := C27_same_bytes_partial ⟨[.regular false false (.returnFileHeader
      ⟨0x40, ⟨⟨false, false, true, true, false, true, false, false⟩, ⟨false, .WRITE, .PERMANENT⟩,
        0xFF, 0xFF, 8, 8⟩⟩), .regular true false (.readFileData ⟨⟨3, ⟨70⟩⟩, ⟨1⟩⟩)],
      none, false, none, true, false, none⟩ [33, 0x40, 0x34, 0x23, 0xFF, 0xFF, 0,
      0, 0, 8, 0, 0, 0, 8, 0x81, 3, 0x40, 70, 1] rfl rfl ?_ (by decide)
  · exact this
  intro a ha
  have hb : a.Built := by
    simp only [List.mem_cons, List.not_mem_nil, or_false] at ha
    rcases ha with rfl | rfl
    · exact ⟨show FileHeaderOperand.Built _ by decide, trivial⟩
    · exact ⟨show DataRequest.Built _ by decide, trivial⟩
  rw [C19_action_iff a hb]
  simp only [List.mem_cons, List.not_mem_nil, or_false] at ha
  rcases ha with rfl | rfl <;>
  exact ⟨hb, ⟨trivial, trivial⟩, id, fun x h => by cases h⟩

end Verif
