import Verif.Lemmas.SerialDeliver
import Verif.Props.Commands

/-! C28, C29, C30, C34: serial frames, chunking and counters. -/

namespace Verif.Serial

open Verif

/-! ## C28 framing round trip -/

/-- C28, the builder: with the counter in 0..255 (see `C34_builder`) and a command that serialises
to at most 255 bytes, the frame is `C0 00 counter 01 length crc16(payload) payload` and the counter
advances (255 is followed by 0); more than 255 bytes raise ValueError, a command that does not
serialise raises its own exception, and neither advances the counter. -/
theorem C28_builder (p : Parser) (h0 : 0 ≤ p.upCounter) (h1 : p.upCounter ≤ 255) (g : Gen) :
    (∀ bs, bytearray g = .ok bs → bs.length ≤ 255 → p.buildSerialFrame g =
      ({ p with upCounter := if p.upCounter = 255 then 0 else p.upCounter + 1 },
        .ok (frame (UInt8.ofNat p.upCounter.toNat) 1 bs))) ∧
    (∀ bs, bytearray g = .ok bs → 255 < bs.length → p.buildSerialFrame g =
      (p, .error .valueError)) ∧
    (∀ e, bytearray g = .error e → p.buildSerialFrame g = (p, .error e)) := by
  have hhead : Emits (.int 0xC0 ++ .int 0 ++ .int p.upCounter ++ .int 1)
      ([0xC0] ++ [0] ++ [UInt8.ofNat p.upCounter.toNat] ++ [1]) :=
    (((Emits.int (i := 0xC0) (by decide) (by decide)).append
      (Emits.int (i := 0) (by decide) (by decide))).append (Emits.int h0 h1)).append
      (Emits.int (i := 1) (by decide) (by decide))
  refine ⟨?_, ?_, ?_⟩
  · intro bs hbs hl
    have he := hhead.append (Emits.int (i := (bs.length : Int)) (by omega) (by omega))
    unfold Emits at he
    unfold Parser.buildSerialFrame
    rw [hbs]
    simp only [he]
    have : (if p.upCounter + 1 > 255 then (0 : Int) else p.upCounter + 1) =
        if p.upCounter = 255 then 0 else p.upCounter + 1 := by
      split <;> split <;> omega
    rw [this]
    simp [frame]
  · intro bs hbs hl
    unfold Parser.buildSerialFrame
    rw [hbs]
    simp only
    rw [bytearray_append]
    unfold Emits at hhead
    rw [hhead]
    have : bytearray (.int (bs.length : Int)) = .error .valueError := by
      have : ¬ ((bs.length : Int) ≤ 255) := by omega
      simp [Gen.int, bytearray, itemsToBytes, Item.toByte, this]
    rw [this]
    rfl
  · intro e he
    unfold Parser.buildSerialFrame
    rw [he]

/-- A frame of a tag request command from a fresh builder. -/
example : (Parser.new false).buildSerialFrame (.int 0xB4 ++ .int 7) =
    ({ Parser.new false with upCounter := 1 }, .ok (frame 0 1 [0xB4, 7])) :=
  (C28_builder (Parser.new false) (by decide) (by decide) _).1 [0xB4, 7] (by decide) (by decide)
/-- 256 bytes do not fit. -/
example : (Parser.new false).buildSerialFrame (.concat (List.replicate 256 (.int 0))) =
    (Parser.new false, .error .valueError) :=
  (C28_builder (Parser.new false) (by decide) (by decide) _).2.1 (List.replicate 256 0)
    (by decide +kernel) (by decide +kernel)

/-- The received command `d` is the sent command `c`: same operations, operands and flag bits in the
same order; same tag and response flag if a tag request was generated; no interface status. -/
def ArrivesAs (c d : Command) : Prop :=
  d.actions.map (fun a => (a.operation, a.flags)) =
    c.actions.map (fun a => (a.operation, a.flags)) ∧
  d.interfaceStatus = none ∧
  d.tagId = (if c.generateTagRequestAction then c.tagId else none) ∧
  d.sendTagResponseWhenCompleted =
    (if c.generateTagRequestAction then c.sendTagResponseWhenCompleted else true)

/-- The commands of `C20_command_round_trip_partial`: every action was accepted by its constructors,
comes back (C19) and is not a tag action; no interface status; and they serialise to at most 255
bytes. -/
def Transmittable (c : Command) : Prop :=
  (∀ a ∈ c.actions, a.Built ∧ a.ComesBack ∧ ¬ a.operation.isTag) ∧
  (c.generateTagRequestAction = true → ∃ t, c.tagId = some t ∧ 0 ≤ t ∧ t ≤ 255) ∧
  c.interfaceStatus = none ∧ ∀ bs, bytearray c.iter = .ok bs → bs.length ≤ 255

theorem Transmittable.carries {c : Command} (h : Transmittable c) :
    ∃ bs d, bytearray c.iter = .ok bs ∧ bs.length ≤ 255 ∧ ArrivesAs c d ∧
      ∀ t : UInt8, t ≠ 4 → t ≠ 5 → Carries false t bs (.command d) := by
  obtain ⟨h1, h2, h3, h4⟩ := h
  obtain ⟨bs, d, e1, e2, e3, e4, e5, e6, -⟩ := C20_command_round_trip_partial c h1 h2 h3
  refine ⟨bs, d, e1, h4 bs e1, ⟨e3, e4, e5, e6⟩, fun t h4 h5 => .alp t bs d rfl h4 h5 ?_⟩
  have := e2 []
  simpa using this

/-- C28, end to end: for a command that serialises to at most 255 bytes which parse (exactly) to a
command `d`, the builder makes a frame, and a parser with an empty buffer that receives this frame
followed by an incomplete next frame delivers exactly `d`, with type ALP_DATA and no error, and keeps
the incomplete frame in its buffer. -/
theorem C28_round_trip (b r : Parser) (hb : 0 ≤ b.upCounter ∧ b.upCounter ≤ 255)
    (hr : r.buffer = []) (hs : r.skipAlpParsing = false) (c d : Command) (bs : List UInt8)
    (hc : bytearray c.iter = .ok bs) (hl : bs.length ≤ 255)
    (hd : AlpParser.parse bs.length (stream bs) = .ok d ⟨8 * bs.length, []⟩)
    (following missing payload : List UInt8) (counter type : UInt8) (hp : payload.length ≤ 255)
    (hf : following ++ missing = frame counter type payload) (hm : missing ≠ []) :
    ∃ b' f r', b.buildSerialFrame c.iter = (b', .ok f) ∧
      r.parse (f ++ following) =
        (r', .ok ⟨[(1, .command d)], 8 * f.length, following.length * 8, []⟩) ∧
      r'.buffer = following := by
  have hbuild := (C28_builder b hb.1 hb.2 c.iter).1 bs hc hl
  have hcar : Carries false 1 bs (.command d) := .alp 1 bs d rfl (by decide) (by decide) hd
  refine ⟨_, _, { r.countAll (trace false (frame (UInt8.ofNat b.upCounter.toNat) 1 bs ++
    following)).counts with buffer := following }, hbuild, ?_, rfl⟩
  rw [parse_trace, hr, hs, List.nil_append, trace_frame hcar hl]
  have hv := view_prefix hp hf hm
  have hlen : (frame (UInt8.ofNat b.upCounter.toNat) 1 bs).length = 7 + bs.length := by
    simp [frame]; omega
  have htr : (trace false following).evs = [] ∧ (trace false following).rest = following ∧
      (trace false following).escaped = false := by
    by_cases hfe : following = []
    · rw [hfe, trace_nil]; exact ⟨rfl, rfl, rfl⟩
    · rw [trace_need hfe (by unfold front; rw [hv])]; exact ⟨rfl, rfl, rfl⟩
  unfold finish
  simp only [htr.1, htr.2.1, htr.2.2, hlen, Bool.false_eq_true, if_false, Ev.msgs, Ev.taken,
    Ev.errs, List.nil_append, Nat.add_zero, Nat.zero_add]
  rfl

/-- An empty command with tag 7, followed by the first three bytes of another frame. -/
example : bytearray (Command.iter (.empty 7)) = .ok [0xB4, 7] ∧
    (match AlpParser.parse 2 (stream [0xB4, 7]) with | .ok d s => some (d.tagId, s.pos) | .err _ _ => none) =
      some (some 7, 16) ∧
    [0xC0, 0, 3] ++ (frame 3 4 [65]).drop 3 = frame 3 4 [65] := by decide +kernel

/-- C28 for the commands of C20: what arrives is the command that was sent. -/
theorem C28_commands (b r : Parser) (hb : 0 ≤ b.upCounter ∧ b.upCounter ≤ 255)
    (hr : r.buffer = []) (hs : r.skipAlpParsing = false) (c : Command) (hc : Transmittable c)
    (following missing payload : List UInt8) (counter type : UInt8) (hp : payload.length ≤ 255)
    (hf : following ++ missing = frame counter type payload) (hm : missing ≠ []) :
    ∃ b' f d r', b.buildSerialFrame c.iter = (b', .ok f) ∧ ArrivesAs c d ∧
      r.parse (f ++ following) =
        (r', .ok ⟨[(1, .command d)], 8 * f.length, following.length * 8, []⟩) ∧
      r'.buffer = following := by
  obtain ⟨bs, d, e1, e2, e3, e4⟩ := hc.carries
  cases e4 1 (by decide) (by decide) with
  | alp _ _ _ _ _ _ hd =>
    obtain ⟨b', f, r', h1, h2, h3⟩ := C28_round_trip b r hb hr hs c d bs e1 e2 hd following missing
      payload counter type hp hf hm
    exact ⟨b', f, d, r', h1, e3, h2, h3⟩

/-- A command with a forward and a write action and a tag is transmittable; sent and received. -/
def sampleCommand : Command :=
  ⟨[.regular false false (.forward ⟨.SERIAL, none⟩),
    .regular false true (.writeFileData ⟨⟨0x40, ⟨70⟩⟩, ⟨3⟩, [1, 2, 255]⟩)],
    none, true, some 77, true, false, none⟩

theorem sampleCommand_transmittable : Transmittable sampleCommand := by
  refine ⟨?_, fun _ => ⟨77, rfl, by decide, by decide⟩, rfl, ?_⟩
  · intro a ha
    simp only [sampleCommand, List.mem_cons, List.not_mem_nil, or_false] at ha
    rcases ha with rfl | rfl
    · have hb : (Action.regular false false (.forward ⟨.SERIAL, none⟩)).Built :=
        ⟨by rintro c ⟨⟩, trivial⟩
      exact ⟨hb, (C19_action_iff _ hb).2 ⟨trivial, rfl, trivial⟩, id⟩
    · have hb : (Action.regular false true
          (.writeFileData ⟨⟨0x40, ⟨70⟩⟩, ⟨3⟩, [1, 2, 255]⟩)).Built := 
        ⟨show Data.Built ⟨⟨0x40, ⟨70⟩⟩, ⟨3⟩, [1, 2, 255]⟩ by decide, trivial⟩
      exact ⟨hb, (C19_action_iff _ hb).2 ⟨trivial, by simp [Operation.Survives, Action.operation]⟩,
        id⟩
  · intro bs h
    have : bytearray sampleCommand.iter =
        .ok [0xB4, 77, 0x32, 1, 0x44, 0x40, 0x40, 70, 3, 1, 2, 255] := by decide +kernel
    rw [this] at h
    cases h
    decide

example : ∃ b' f d r', (Parser.new false).buildSerialFrame sampleCommand.iter = (b', .ok f) ∧
    ArrivesAs sampleCommand d ∧
    (Parser.new false).parse (f ++ [0xC0, 0, 1]) =
      (r', .ok ⟨[(1, .command d)], 8 * f.length, 24, []⟩) ∧ r'.buffer = [0xC0, 0, 1] :=
  C28_commands (Parser.new false) (Parser.new false) (by decide) rfl rfl sampleCommand
    sampleCommand_transmittable [0xC0, 0, 1] [1, 0, 0xFF, 0xFF] [] 1 1 (by decide)
    (by decide +kernel) (by decide)

/-! ## C29 chunking -/

/-- C29: for every starting state and every non-empty list of chunks, calling `parse` chunk by chunk
delivers the same messages and ends with the same buffer as one call on the concatenation; it raises
if and only if the one call raises, with the same exception. -/
theorem C29_chunking (p : Parser) (chunks : List (List UInt8)) (hne : chunks ≠ []) :
    match p.parse chunks.flatten with
    | (q, .ok o) => ∃ q' errors, feed p chunks = .ok (q', o.cmds, errors) ∧ q'.buffer = q.buffer ∧
        q'.skipAlpParsing = q.skipAlpParsing ∧ q'.upCounter = q.upCounter
    | (_, .error e) => feed p chunks = .error e := by
  have h := feed_trace chunks p hne
  have hsk := countAll_skip p (trace p.skipAlpParsing (p.buffer ++ chunks.flatten)).counts
  rw [parse_trace, finish]
  split at h
  · next he => simp only [he, if_true]; exact h
  · next he =>
    simp only [he, Bool.false_eq_true, if_false, List.nil_append]
    obtain ⟨q, es, h1, h2, h3, h4⟩ := h
    exact ⟨q, es, h1, h2, by rw [h3, hsk.1], by rw [h4, hsk.2.2]⟩

/-- A frame cut inside its header, after noise. -/
example : (feed (Parser.new true) [[0x55, 0xC0, 0], [7, 1, 2, 0x1D, 0x0F], [], [1, 2, 0xC0]]).map
    (fun r => (r.1.buffer, r.2.1)) =
    ((Parser.new true).parse [0x55, 0xC0, 0, 7, 1, 2, 0x1D, 0x0F, 1, 2, 0xC0]).2.map
      (fun o => ([0xC0], o.cmds)) := by decide +kernel

/-- What does depend on the chunking: the list of reported errors and the counter of counter
mismatches. Two junk bytes give one error together and two errors separately; a CRC-valid frame
whose command needs more bytes than its length says is counted at each attempt. -/
theorem C29_errors_and_counters_vary :
    (feed (Parser.new false) [[1, 2]]).map (fun r => r.2.2.length) = .ok 1 ∧
    (feed (Parser.new false) [[1], [2]]).map (fun r => r.2.2.length) = .ok 2 ∧
    (feed (Parser.new false) [frame 5 1 [1] ++ [0x40]]).map (fun r => r.1.errorCounter) = .ok 1 ∧
    (feed (Parser.new false) [frame 5 1 [1], [0x40]]).map (fun r => r.1.errorCounter) = .ok 2 := by
  decide +kernel

/-! ## C30 sequences of frames -/

/-- C30: any number of well-formed frames, in any chunking (also when the first frame is already
partly in the buffer), are delivered completely and in order, with no errors and an empty buffer. -/
theorem C30_frames (p : Parser) (fs : List Sent) (hfs : ∀ f ∈ fs, f.Valid p.skipAlpParsing)
    (chunks : List (List UInt8)) (hne : chunks ≠ [])
    (h : p.buffer ++ chunks.flatten = (fs.map Sent.bytes).flatten) :
    ∃ q, feed p chunks = .ok (q, fs.map Sent.delivered, []) ∧ q.buffer = [] :=
  ⟨_, feed_frames chunks p fs hfs hne h, rfl⟩

/-- A reboot frame, a log frame and an (empty) ALP frame in three chunks. -/
example : ∃ q, feed (Parser.new false) [(frame 1 5 [3]).take 4, (frame 1 5 [3]).drop 4 ++ frame 2 4 [65],
      frame 3 1 []] =
    .ok (q, [(5, .rebooted 3), (4, .bytes [65]), (1, .command ⟨[], none, false, none, true, false, none⟩)],
      []) ∧ q.buffer = [] :=
  C30_frames (Parser.new false)
    [⟨1, 5, [3], .rebooted 3⟩, ⟨2, 4, [65], .bytes [65]⟩,
     ⟨3, 1, [], .command ⟨[], none, false, none, true, false, none⟩⟩]
    (by
      intro f hf
      simp only [List.mem_cons, List.not_mem_nil, or_false] at hf
      rcases hf with rfl | rfl | rfl
      · exact ⟨by decide, .rebooted 3⟩
      · exact ⟨by decide, .logging _⟩
      · exact ⟨by decide, .alp _ _ _ rfl (by decide) (by decide) (by decide +kernel)⟩)
    _ (by simp) (by decide +kernel)

/-! ## C34 counters -/

theorem count_down (p : Parser) (c : UInt8) : (p.count c.toNat).downCounter = c.toNat := by
  unfold Parser.count
  simp only
  generalize (if p.downCounter + 1 > 255 then (0 : Int) else p.downCounter + 1) = x
  by_cases h : (c.toNat : Int) = x
  · rw [if_neg (fun e => e h), h]
  · rw [if_pos h]

theorem count_next (p : Parser) (c d : UInt8) (hp : p.downCounter = c.toNat) (hd : d = c + 1) :
    (p.count d.toNat).errorCounter = p.errorCounter := by
  have h : ((d.toNat : Nat) : Int) =
      if p.downCounter + 1 > 255 then 0 else p.downCounter + 1 := by
    rw [hp, hd, UInt8.toNat_add]
    have := c.toNat_lt
    split <;> simp <;> omega
  unfold Parser.count
  simp only
  rw [← h]
  simp

theorem countAll_in_order (cs : List UInt8) : ∀ (p : Parser) (c : UInt8),
    (c :: cs).IsChain (fun a b => b = a + 1) →
    (p.countAll ((c :: cs).map some)).errorCounter = (p.count c.toNat).errorCounter := by
  induction cs with
  | nil => intro p c _; rfl
  | cons d cs ih =>
    intro p c h
    rw [List.isChain_cons_cons] at h
    have := ih (p.count c.toNat) d h.2
    rw [count_next _ c d (count_down p c) h.1] at this
    exact this

/-- C34, the receiver: a parser with any history (but an empty buffer) that receives, in any
chunking, well-formed frames whose counters follow each other (255 followed by 0) counts no counter
error if the first counter is the one it expects, and exactly one otherwise. -/
theorem C34_receiver (p : Parser) (hb : p.buffer = []) (f : Sent) (fs : List Sent)
    (hfs : ∀ g ∈ f :: fs, g.Valid p.skipAlpParsing)
    (hord : ((f :: fs).map Sent.counter).IsChain (fun a b => b = a + 1))
    (chunks : List (List UInt8)) (h : chunks.flatten = ((f :: fs).map Sent.bytes).flatten) :
    ∃ q ms es, feed p chunks = .ok (q, ms, es) ∧
      q.errorCounter = p.errorCounter +
        (if (f.counter.toNat : Int) = (if p.downCounter ≥ 255 then 0 else p.downCounter + 1)
          then 0 else 1) ∧
      q.downCounter = (((f :: fs).map Sent.counter).getLast (by simp)).toNat := by
  have hne : chunks ≠ [] := by
    rintro rfl
    simp [Sent.bytes, frame] at h
  refine ⟨_, _, _, feed_frames chunks p (f :: fs) hfs hne (by rw [hb]; exact h), ?_, ?_⟩
  · have := countAll_in_order (fs.map Sent.counter) p f.counter hord
    simp only [List.map_cons, List.map_map, Function.comp_def] at this
    simp only [List.map_cons]
    rw [this]
    unfold Parser.count
    simp only
    have hw : (if p.downCounter + 1 > 255 then (0 : Int) else p.downCounter + 1) =
        if p.downCounter ≥ 255 then 0 else p.downCounter + 1 := by
      split <;> split <;> omega
    rw [hw]
    by_cases he : (f.counter.toNat : Int) =
        (if p.downCounter ≥ 255 then (0 : Int) else p.downCounter + 1)
    · rw [if_neg (fun h => h he), if_pos he]; simp
    · rw [if_pos he, if_neg he]
  · have : ∀ (l : List UInt8) (hl : l ≠ []) (p : Parser),
        (p.countAll (l.map some)).downCounter = (l.getLast hl).toNat := by
      intro l
      induction l with
      | nil => intro hl; exact absurd rfl hl
      | cons c l ih =>
        intro _ p
        by_cases hl : l = []
        · subst hl; exact count_down p c
        · rw [List.getLast_cons hl]
          exact ih hl (p.count c.toNat)
    have := this ((f :: fs).map Sent.counter) (by simp) p
    rw [List.map_map] at this
    exact this

/-- A run over the wrap, received by a fresh parser: one counter error. -/
example : (feed (Parser.new true) [frame 254 4 [] ++ frame 255 4 [], frame 0 4 [], frame 1 4 []]).map
    (fun r => (r.1.errorCounter, r.1.downCounter)) = .ok (1, 1) := by decide +kernel

/-- A fresh builder starts with counter 0 but a fresh parser expects 1: the very first frame is
always counted as a counter error. -/
theorem C34_fresh_mismatch (g : Gen) (bs : List UInt8) (h : bytearray g = .ok bs)
    (hl : bs.length ≤ 255) :
    ∃ b f q o, (Parser.new true).buildSerialFrame g = (b, .ok f) ∧
      (Parser.new true).parse f = (q, .ok o) ∧ q.errorCounter = 1 := by
  have hb := (C28_builder (Parser.new true) (by decide) (by decide) g).1 bs h hl
  refine ⟨_, _, ⟨[], true, 0, 0, 1⟩, ⟨[(1, .bytes bs)], 8 * (7 + bs.length), 0, []⟩, hb, ?_, rfl⟩
  have hm : Carries true 1 bs (.bytes bs) := .raw 1 bs rfl (by decide) (by decide)
  have ht := trace_frame (c := UInt8.ofNat (Parser.new true).upCounter.toNat) hm hl []
  rw [parse_trace]
  rw [List.append_nil] at ht
  simp only [Parser.new, List.nil_append] at ht ⊢
  rw [ht]
  simp only [finish, trace_nil, Ev.msgs, Ev.taken, Ev.errs, Bool.false_eq_true, if_false,
    List.nil_append, List.length_nil, Nat.zero_mul, Nat.add_zero, Nat.zero_add]
  rfl

example : bytearray (Gen.int 7) = .ok [7] := by decide

theorem parse_up (p : Parser) (b : List UInt8) : (p.parse b).1.upCounter = p.upCounter := by
  rw [parse_trace]
  exact (countAll_skip p _).2.2

theorem built_counter (ops : List Op) : ∀ (p : Parser) (n : Nat), p.upCounter = (n % 256 : Nat) →
    ∀ k (hk : k < (built p ops).length), ∃ pl, pl.length ≤ 255 ∧
      (built p ops)[k] = frame (UInt8.ofNat (n + k)) 1 pl := by
  induction ops with
  | nil => intro p n _ k hk; simp [built] at hk
  | cons op ops ih =>
    intro p n hn k hk
    cases op with
    | receive b =>
      simp only [built] at hk ⊢
      exact ih _ n (by rw [parse_up, hn]) k hk
    | build g =>
      have h0 : 0 ≤ p.upCounter := by rw [hn]; omega
      have h1 : p.upCounter ≤ 255 := by rw [hn]; omega
      obtain ⟨c1, c2, c3⟩ := C28_builder p h0 h1 g
      cases hg : bytearray g with
      | error e =>
        have := c3 e hg
        simp only [built, this] at hk ⊢
        exact ih _ n hn k hk
      | ok bs =>
        rcases Nat.lt_or_ge 255 bs.length with hl | hl
        · have := c2 bs hg hl
          simp only [built, this] at hk ⊢
          exact ih _ n hn k hk
        · have := c1 bs hg hl
          simp only [built, this] at hk ⊢
          cases k with
          | zero =>
            refine ⟨bs, hl, ?_⟩
            rw [List.getElem_cons_zero, hn, Nat.add_zero, Int.toNat_natCast]
            congr 1
            exact UInt8.toNat_inj.1 (by simp)
          | succ k =>
            obtain ⟨pl, e1, e2⟩ := ih
              { p with upCounter := if p.upCounter = 255 then 0 else p.upCounter + 1 } (n + 1) (by
              simp only
              rw [hn]
              split <;> omega) k (by simpa using hk)
            refine ⟨pl, e1, ?_⟩
            rw [List.getElem_cons_succ, e2]
            congr 2
            omega

/-- C34, the builder: whatever a Parser object is used for (building frames, also failing attempts,
and receiving), the k-th frame it built carries the counter k mod 256 (`UInt8.ofNat` reduces modulo
256), the type ALP_DATA and a payload of at most 255 bytes. -/
theorem C34_builder (skip : Bool) (ops : List Op) (k : Nat)
    (hk : k < (built (Parser.new skip) ops).length) :
    ∃ payload, payload.length ≤ 255 ∧
      (built (Parser.new skip) ops)[k] = frame (UInt8.ofNat k) 1 payload := by
  obtain ⟨pl, h1, h2⟩ := built_counter ops (Parser.new skip) 0 rfl k hk
  exact ⟨pl, h1, by rw [h2, Nat.zero_add]⟩

/-- Three frames with a failing attempt and a reception in between. -/
example : built (Parser.new false) [.build (.int 1), .build (.int 256), .receive [1, 2], .build .nil,
    .build (.int 2)] = [frame 0 1 [1], frame 1 1 [], frame 2 1 [2]] := by decide +kernel

/-! ## The link as a whole -/

theorem buildAll_frames (cs : List Command) : ∀ (b : Parser),
    0 ≤ b.upCounter ∧ b.upCounter ≤ 255 → (∀ c ∈ cs, Transmittable c) →
    ∃ b' fs, buildAll b (cs.map Command.iter) = .ok (b', fs.map Sent.bytes) ∧
      (∀ f ∈ fs, f.Valid false ∧ f.type = 1) ∧
      List.Forall₂ (fun c f => ∃ d, f.msg = .command d ∧ ArrivesAs c d) cs fs ∧
      (fs.map Sent.counter).IsChain (fun a b => b = a + 1) ∧
      (∀ f ∈ fs.head?, f.counter = UInt8.ofNat b.upCounter.toNat) := by
  induction cs with
  | nil => intro b _ _; exact ⟨b, [], rfl, by simp, .nil, by simp, by simp⟩
  | cons c cs ih =>
    intro b hb hcs
    obtain ⟨bs, d, e1, e2, e3, e4⟩ := (hcs c (by simp)).carries
    have hbuild := (C28_builder b hb.1 hb.2 c.iter).1 bs e1 e2
    have hup : 0 ≤ (if b.upCounter = 255 then (0 : Int) else b.upCounter + 1) ∧
        (if b.upCounter = 255 then (0 : Int) else b.upCounter + 1) ≤ 255 := by
      obtain ⟨h1, h2⟩ := hb
      constructor <;> split <;> omega
    obtain ⟨b', fs, i1, i2, i3, i4, i5⟩ := ih
      { b with upCounter := if b.upCounter = 255 then 0 else b.upCounter + 1 } hup
      (fun x hx => hcs x (by simp [hx]))
    refine ⟨b', ⟨UInt8.ofNat b.upCounter.toNat, 1, bs, .command d⟩ :: fs, ?_, ?_, ?_, ?_, ?_⟩
    · simp only [List.map_cons, buildAll, hbuild, i1]
      rfl
    · intro f hf
      rcases List.mem_cons.1 hf with rfl | hf
      · exact ⟨⟨e2, e4 1 (by decide) (by decide)⟩, rfl⟩
      · exact i2 f hf
    · exact .cons ⟨d, rfl, e3⟩ i3
    · cases fs with
      | nil => simp
      | cons f fs =>
        simp only [List.map_cons] at i4 ⊢
        rw [List.isChain_cons_cons]
        refine ⟨?_, i4⟩
        have := i5 f (by simp)
        rw [this]
        simp only
        apply UInt8.toNat_inj.1
        rw [UInt8.toNat_add]
        obtain ⟨h1, h2⟩ := hb
        simp only [UInt8.toNat_ofNat']
        split
        · next h => rw [h]; decide
        · have : (b.upCounter + 1).toNat = b.upCounter.toNat + 1 := by omega
          rw [this]
          simp
    · simp

/-- C30 and C34 end to end, for the commands that come back (C20): frames built one after the other
by one builder, sent in any chunking to a parser with an empty buffer, deliver exactly the commands,
in order, with no errors, an empty buffer and at most one counter mismatch. -/
theorem C30_link (b r : Parser) (hb : 0 ≤ b.upCounter ∧ b.upCounter ≤ 255)
    (hr : r.buffer = []) (hs : r.skipAlpParsing = false) (cs : List Command)
    (hcs : ∀ c ∈ cs, Transmittable c) :
    ∃ b' frames, buildAll b (cs.map Command.iter) = .ok (b', frames) ∧
      ∀ chunks : List (List UInt8), chunks ≠ [] → chunks.flatten = frames.flatten →
        ∃ q ds, feed r chunks = .ok (q, ds.map (fun d => (1, .command d)), []) ∧
          List.Forall₂ ArrivesAs cs ds ∧ q.buffer = [] ∧ q.errorCounter ≤ r.errorCounter + 1 := by
  obtain ⟨b', fs, h1, h2, h3, h4, -⟩ := buildAll_frames cs b hb hcs
  refine ⟨b', fs.map Sent.bytes, h1, fun chunks hne hfl => ?_⟩
  have hfeed := feed_frames chunks r fs (by rw [hs]; exact fun f hf => (h2 f hf).1) hne
    (by rw [hr]; exact hfl)
  have hds : ∀ (cs : List Command) (fs : List Sent), (∀ f ∈ fs, f.Valid false ∧ f.type = 1) →
      List.Forall₂ (fun c f => ∃ d, f.msg = .command d ∧ ArrivesAs c d) cs fs →
      ∃ ds : List Command, fs.map Sent.delivered = ds.map (fun d => (1, .command d)) ∧
        List.Forall₂ ArrivesAs cs ds := by
    intro cs fs hv h
    induction h with
    | nil => exact ⟨[], rfl, .nil⟩
    | @cons c f cs fs hd _ ih =>
      obtain ⟨d, e1, e2⟩ := hd
      obtain ⟨ds, i1, i2⟩ := ih (fun g hg => hv g (by simp [hg]))
      refine ⟨d :: ds, ?_, .cons e2 i2⟩
      have ht := (hv f (by simp)).2
      simp only [List.map_cons, i1, Sent.delivered, ht, e1]
      rfl
  obtain ⟨ds, e1, e2⟩ := hds cs fs h2 h3
  rw [e1] at hfeed
  refine ⟨_, ds, hfeed, e2, rfl, ?_⟩
  simp only
  cases fs with
  | nil => simp [Parser.countAll]
  | cons f fs =>
    have := countAll_in_order (fs.map Sent.counter) r f.counter h4
    simp only [List.map_cons, List.map_map, Function.comp_def] at this
    simp only [List.map_cons]
    rw [this]
    unfold Parser.count
    simp only
    generalize (if r.downCounter + 1 > 255 then (0 : Int) else r.downCounter + 1) = x
    split <;> simp

/-- Two commands over one link, cut after three bytes. -/
example : ∃ b' frames, buildAll (Parser.new false) ([sampleCommand, sampleCommand].map Command.iter) =
    .ok (b', frames) ∧ ∃ q ds, feed (Parser.new false)
      [frames.flatten.take 3, frames.flatten.drop 3] = .ok (q, ds.map (fun d => (1, .command d)), []) ∧
      List.Forall₂ ArrivesAs [sampleCommand, sampleCommand] ds := by
  obtain ⟨b', fs, h1, h2⟩ := C30_link (Parser.new false) (Parser.new false) (by decide) rfl rfl
    [sampleCommand, sampleCommand] (by
      intro c hc
      simp only [List.mem_cons, List.not_mem_nil, or_false, or_self] at hc
      rw [hc]
      exact sampleCommand_transmittable)
  obtain ⟨q, ds, h3, h4, -⟩ := h2 [fs.flatten.take 3, fs.flatten.drop 3] (by simp) (by simp)
  exact ⟨b', fs, h1, q, ds, h3, h4⟩

end Verif.Serial
