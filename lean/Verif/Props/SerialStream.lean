import Verif.Lemmas.SerialDeliver
import Verif.Lemmas.Codec2

/-! C31, C32, C35, C36, C37, C38: the serial parser on arbitrary byte streams. -/

namespace Verif.Serial

open Verif

/-! ## C31 resynchronisation -/

/-- C31, noise without a sync byte: it has no influence on what is delivered from the bytes after it
(which may be anything), on the remaining buffer or on whether the call raises. -/
theorem C31_noise_without_sync (p : Parser) (hb : p.buffer = []) (noise x : List UInt8)
    (hn : 0xC0 ∉ noise) :
    match p.parse x with
    | (q, .ok o) => ∃ q' o', p.parse (noise ++ x) = (q', .ok o') ∧ o'.cmds = o.cmds ∧
        o'.parsed = o.parsed ∧ q'.buffer = q.buffer
    | (_, .error e) => ∃ q', p.parse (noise ++ x) = (q', .error e) := by
  have h : (trace p.skipAlpParsing (noise ++ x)).Same (trace p.skipAlpParsing x) := by
    have h1 := trace_fromSync p.skipAlpParsing (noise ++ x)
    have h2 := trace_fromSync p.skipAlpParsing x
    rw [fromSync_append, if_pos (fromSync_none hn)] at h1
    exact ⟨h1.1.trans h2.1.symm, h1.2.1.trans h2.2.1.symm, h1.2.2.1.trans h2.2.2.1.symm,
      h1.2.2.2.trans h2.2.2.2.symm⟩
  obtain ⟨h1, h2, h3, h4⟩ := h
  rw [parse_trace, parse_trace, hb, List.nil_append, List.nil_append]
  simp only [finish, h4]
  by_cases he : (trace p.skipAlpParsing x).escaped = true
  · simp only [he, if_true]
    exact ⟨_, rfl⟩
  · simp only [he, Bool.false_eq_true, if_false]
    exact ⟨_, _, rfl, by simp only [h1], by simp only [h2], h3⟩

/-- Two noise bytes before a log frame. -/
example : ∃ q' o', (Parser.new false).parse ([1, 2] ++ frame 1 4 [65]) = (q', .ok o') ∧
    o'.cmds = [(4, .bytes [65])] ∧ o'.parsed = 64 ∧ q'.buffer = [] := by
  have h := C31_noise_without_sync (Parser.new false) rfl [1, 2] (frame 1 4 [65]) (by decide)
  have ht : (Parser.new false).parse (frame 1 4 [65]) =
      (⟨[], false, 0, 1, 0⟩, .ok ⟨[(4, .bytes [65])], 64, 0, []⟩) := by decide +kernel
  rw [ht] at h
  exact h

theorem trace_noise (skip : Bool) (n : Nat) : ∀ (noise : List UInt8) (f : Sent) (tail : List UInt8),
    noise.length = n → f.Valid skip →
    (∀ pre suf, noise = pre ++ suf → suf ≠ [] → ∀ c t pl y, pl.length ≤ 255 →
      suf ++ f.bytes ++ tail ≠ frame c t pl ++ y) →
    261 ≤ f.bytes.length + tail.length →
    Ev.msgs (trace skip (noise ++ f.bytes ++ tail)).evs =
      f.delivered :: Ev.msgs (trace skip tail).evs ∧
    (trace skip (noise ++ f.bytes ++ tail)).rest = (trace skip tail).rest ∧
    (trace skip (noise ++ f.bytes ++ tail)).escaped = (trace skip tail).escaped := by
  induction n using Nat.strong_induction_on with
  | _ n ih =>
    intro noise f tail hn hf hno hlen
    cases noise with
    | nil =>
      have := trace_frame (c := f.counter) hf.2 hf.1 tail
      rw [List.nil_append, Sent.bytes, this]
      exact ⟨rfl, rfl, rfl⟩
    | cons y ys =>
      have hfront : ∃ e pos, front skip (y :: ys ++ f.bytes ++ tail) = .bad e pos := by
        have hl : 262 ≤ (y :: ys ++ f.bytes ++ tail).length := by
          simp only [List.length_append, List.length_cons]; omega
        have hnov : ∀ c t l rest, view (y :: ys ++ f.bytes ++ tail) ≠ .valid c t l rest := by
          intro c t l rest hv
          obtain ⟨h1, h2, h3⟩ := view_valid.1 hv
          refine hno [] (y :: ys) rfl (by simp) c t (rest.take l) (rest.drop l) (by simp; omega) ?_
          rw [h3, frame]
          have hpl : (rest.take l).length = l := by simp [h2]
          rw [hpl, List.append_assoc, List.take_append_drop]
        unfold front
        cases hv : view (y :: ys ++ f.bytes ++ tail) with
        | short =>
          have : front skip (y :: ys ++ f.bytes ++ tail) = .need := by unfold front; rw [hv]
          rcases front_need this with h | ⟨c, t, pl, af, h1, h2, -⟩
          · omega
          · exact absurd h1 (hno [] (y :: ys) rfl (by simp) c t pl af h2)
        | nosync pos => exact ⟨_, _, rfl⟩
        | crcBad c => exact ⟨_, _, rfl⟩
        | valid c t l rest => exact absurd hv (hnov c t l rest)
      obtain ⟨e, pos, hfront⟩ := hfront
      rw [trace_bad (by simp) hfront]
      simp only [Ev.msgs, List.cons_append, (skip_cons y _).1]
      rw [List.append_assoc, fromSync_append]
      by_cases hs : fromSync ys = []
      · have hb : fromSync (f.bytes ++ tail) = f.bytes ++ tail := by
          simp [Sent.bytes, frame, fromSync]
        rw [if_pos hs, hb]
        have := trace_frame (c := f.counter) hf.2 hf.1 tail
        rw [Sent.bytes, this]
        exact ⟨rfl, rfl, rfl⟩
      · rw [if_neg hs, ← List.append_assoc]
        obtain ⟨g, hg⟩ := fromSync_suffix ys
        have hl := fromSync_length ys
        simp only [List.length_cons] at hn
        refine ih _ (by omega) (fromSync ys) f tail rfl hf ?_ hlen
        intro pre suf h1 h2
        refine hno (y :: g ++ pre) suf ?_ h2
        rw [List.append_assoc, ← h1, List.cons_append, ← hg]

/-- C31, arbitrary noise: if no position of the noise begins a CRC-valid frame (in the stream with
what follows), a valid frame after it is delivered as soon as it and the following bytes are at least
261 (so that no bogus length in the noise can still be incomplete), and the bytes after the frame
are treated as without noise and frame. -/
theorem C31_resync (p : Parser) (hb : p.buffer = []) (noise : List UInt8) (f : Sent)
    (tail : List UInt8) (hf : f.Valid p.skipAlpParsing)
    (hno : ∀ pre suf, noise = pre ++ suf → suf ≠ [] → ∀ c t pl y, pl.length ≤ 255 →
      suf ++ f.bytes ++ tail ≠ frame c t pl ++ y)
    (hlen : 261 ≤ f.bytes.length + tail.length) :
    match p.parse tail with
    | (q, .ok o) => ∃ q' o', p.parse (noise ++ f.bytes ++ tail) = (q', .ok o') ∧
        o'.cmds = f.delivered :: o.cmds ∧ q'.buffer = q.buffer
    | (_, .error e) => ∃ q', p.parse (noise ++ f.bytes ++ tail) = (q', .error e) := by
  obtain ⟨h1, h2, h3⟩ := trace_noise p.skipAlpParsing _ noise f tail rfl hf hno hlen
  rw [parse_trace, parse_trace, hb, List.nil_append, List.nil_append]
  simp only [finish, h3]
  by_cases he : (trace p.skipAlpParsing tail).escaped = true
  · simp only [he, if_true]
    exact ⟨_, rfl⟩
  · simp only [he, Bool.false_eq_true, if_false]
    exact ⟨_, _, rfl, by simp only [h1, List.nil_append], h2⟩

/-- Noise that looks like a frame but fails the CRC, then a log frame and 260 idle bytes. -/
example : ∃ q o, (Parser.new false).parse ([0xC0, 0, 1, 1, 0, 0, 0] ++ frame 7 4 [65] ++
    List.replicate 260 0x55) = (q, .ok o) ∧ o.cmds = [(4, .bytes [65])] ∧ q.buffer = [] := by
  have h := C31_resync (Parser.new false) rfl [0xC0, 0, 1, 1, 0, 0, 0] ⟨7, 4, [65], .bytes [65]⟩
    (List.replicate 260 0x55) ⟨by decide, .logging _⟩ (by
      intro pre suf h1 h2 c t pl y hpl
      have h3 : ∀ l : List UInt8, l.head? ≠ some 0xC0 → l ≠ [] → l ++ (Sent.bytes
          ⟨7, 4, [65], .bytes [65]⟩ ++ List.replicate 260 0x55) ≠ frame c t pl ++ y := by
        intro l hl hne he
        cases l with
        | nil => exact hne rfl
        | cons z zs =>
          simp only [List.cons_append, frame, List.cons.injEq] at he
          simp only [List.head?_cons, ne_eq, Option.some.injEq] at hl
          exact hl he.1
      rw [List.append_assoc]
      match pre, h1 with
      | [], h1 =>
        rw [List.nil_append] at h1
        rw [← h1]
        intro he
        simp only [List.cons_append, List.nil_append, frame, List.cons.injEq] at he
        obtain ⟨-, -, -, -, hl, hc, -⟩ := he
        have : pl.length = 0 := by
          have := congrArg UInt8.toNat hl
          simp at this
          omega
        rw [List.eq_nil_of_length_eq_zero this] at hc
        revert hc
        decide +kernel
      | [_], h1 | [_, _], h1 | [_, _, _], h1 | [_, _, _, _], h1 | [_, _, _, _, _], h1
      | [_, _, _, _, _, _], h1 =>
        simp only [List.cons_append, List.nil_append, List.cons.injEq] at h1
        refine h3 suf ?_ h2
        simp [← h1]
      | _ :: _ :: _ :: _ :: _ :: _ :: _ :: _, h1 =>
        simp only [List.cons_append, List.cons.injEq, List.nil_eq, List.append_eq_nil_iff] at h1
        exact absurd h1.2.2.2.2.2.2.2.2 h2)
    (by decide +kernel)
  have ht : (Parser.new false).parse (List.replicate 260 0x55) =
      (Parser.new false, .ok ⟨[], 0, 0, [⟨.parseError, List.replicate 260 0x55, 8, 260⟩]⟩) := by
    decide +kernel
  rw [ht] at h
  exact h

/-- The bound on the number of bytes is needed: with a bogus length in the noise, the frame is held
back as long as too few bytes follow. -/
theorem C31_held_back : ((Parser.new true).parse ([0xC0, 0, 1, 1, 255, 0, 0] ++ frame 1 4 [65])).2.map
    (fun o => (o.cmds, o.errors)) = .ok ([], []) := by decide +kernel

/-! ## C32 soundness -/

/-- C32: whatever a call returns, the bytes it worked on consist of skipped bytes, CRC-valid frames
of exactly the delivered messages in this order, each found after the bytes taken by the one before,
and a tail; the remaining buffer is the end of it. With `C29_chunking` this extends to any sequence
of calls. -/
theorem C32_sound (p q : Parser) (msg : List UInt8) (o : Output)
    (h : p.parse msg = (q, .ok o)) :
    Deliveries p.skipAlpParsing (p.buffer ++ msg) o.cmds q.buffer := by
  rw [parse_trace, finish] at h
  have hd := trace_deliveries p.skipAlpParsing _ (p.buffer ++ msg) rfl
  injection h with h1 h2
  split at h2
  · cases h2
  · injection h2 with h2
    rw [← h1, ← h2]
    exact hd

/-- A frame after junk, with a partial frame behind it. -/
example : Deliveries true ([1, 2] ++ frame 1 4 [65] ++ [0xC0]) [(4, .bytes [65])] [0xC0] := by
  have := C32_sound (Parser.new true) ⟨[0xC0], true, 0, 1, 0⟩ ([1, 2] ++ frame 1 4 [65] ++ [0xC0])
    ⟨[(4, .bytes [65])], 64, 8, [⟨.parseError, [1, 2] ++ frame 1 4 [65] ++ [0xC0], 8, 2⟩]⟩
    (by decide +kernel)
  rw [show (Parser.new true).buffer = [] from rfl, List.nil_append] at this
  exact this

/-- In words for one message: it is a frame of the input, with its type, a length of at most 255 and
the CRC-16/CCITT-FALSE of the following `length` bytes. -/
theorem Deliveries.mem {skip : Bool} {input rest : List UInt8} {ms : List (Int × Msg)}
    (h : Deliveries skip input ms rest) : ∀ x ∈ ms, ∃ pre counter type payload after used,
      input = pre ++ frame counter type payload ++ after ∧ payload.length ≤ 255 ∧
      x.1 = type.toNat ∧ Reading skip type payload.length (payload ++ after) x.2 used := by
  induction h with
  | done => simp
  | next gap c t pl after taken more m ms rest h1 h2 h3 h4 ih =>
    intro x hx
    rcases List.mem_cons.1 hx with rfl | hx
    · exact ⟨gap, c, t, pl, after, taken.length, rfl, h1, rfl, h3⟩
    · obtain ⟨pre, c', t', pl', after', used, e1, e2, e3, e4⟩ := ih x hx
      have hpl : ∃ hd, frame c t pl ++ after = hd ++ more := by
        refine ⟨[0xC0, 0, c, t, UInt8.ofNat pl.length, (Crc.calculateCrc pl).1,
          (Crc.calculateCrc pl).2] ++ taken, ?_⟩
        rw [frame, List.append_assoc, h2, List.append_assoc]
      obtain ⟨hd, hhd⟩ := hpl
      refine ⟨gap ++ hd ++ pre, c', t', pl', after', used, ?_, e2, e3, e4⟩
      rw [List.append_assoc, hhd, e1]
      simp only [List.append_assoc]

/-- A message takes at least the payload the CRC was computed over, except a reboot message, which
takes one byte. -/
theorem C32_takes_payload {skip : Bool} {type : UInt8} {n : Nat} {data : List UInt8} {m : Msg}
    {used : Nat} (h : Reading skip type n data m used) :
    if type = 5 then used = 1 else n ≤ used := by
  cases h with
  | rebooted r more h => rw [if_pos h]
  | bytes pl more h1 h2 =>
    rw [if_neg]
    rcases h2 with h | h
    · rw [h]; decide
    · exact h.2
  | alp taken more c h4 h5 hs hp =>
    rw [if_neg h5]
    have hsp := AlpParser.parse_spec n (stream (taken ++ more)) rfl
    rw [hp] at hsp
    obtain ⟨d, e1, e2, e3, e4, -⟩ := hsp
    simp only [stream] at e2
    omega

example : Reading true 1 2 [7, 8, 9] (.bytes [7, 8]) 2 ∧ Reading false 5 1 [3, 4] (.rebooted 3) 1 := by
  exact ⟨.bytes [7, 8] [9] rfl (.inr (by decide)), .rebooted 3 [4] rfl⟩

/-- The payloads of different messages need not be disjoint: bytes inside the payload of a reboot
frame longer than one byte are read again as frames. Here the payload of the single frame sent
contains another frame, and two messages are delivered. -/
theorem C32_reboot_overlap :
    ((Parser.new true).parse (frame 1 5 ([0] ++ frame 2 1 [0xAA]))).2.map (·.cmds) =
      .ok [(5, .rebooted 0), (1, .bytes [0xAA])] := by decide +kernel

/-! ## C35 accounting -/

theorem Deliveries.suffix {skip : Bool} {input rest : List UInt8} {ms : List (Int × Msg)}
    (h : Deliveries skip input ms rest) : rest <:+ input := by
  induction h with
  | done gap rest => exact ⟨gap, rfl⟩
  | next gap c t pl after taken more m ms rest h1 h2 h3 h4 ih =>
    obtain ⟨g, rfl⟩ := ih
    refine ⟨gap ++ [0xC0, 0, c, t, UInt8.ofNat pl.length, (Crc.calculateCrc pl).1,
      (Crc.calculateCrc pl).2] ++ taken ++ g, ?_⟩
    rw [frame]
    simp only [List.append_assoc] at h2 ⊢
    rw [h2]


/-- C35: for each call that returns: bytes in the buffer before + bytes received = parsed bits/8 +
skipped bytes of all reported errors + bytes left; the remaining buffer is empty or starts with
0xC0; `info["buffer"]` is its size in bits; the parsed bits are whole bytes. -/
theorem C35_accounting (p q : Parser) (msg : List UInt8) (o : Output)
    (h : p.parse msg = (q, .ok o)) :
    8 * (p.buffer.length + msg.length) =
      o.parsed + 8 * (o.errors.map ErrorInfo.skipped).sum + 8 * q.buffer.length ∧
    8 ∣ o.parsed ∧ o.buffer = 8 * q.buffer.length ∧
    (q.buffer = [] ∨ ∃ r, q.buffer = 0xC0 :: r) ∧ q.buffer <:+ p.buffer ++ msg := by
  rw [parse_trace, finish] at h
  have ha := trace_account p.skipAlpParsing _ (p.buffer ++ msg) rfl
  have he := trace_end p.skipAlpParsing _ (p.buffer ++ msg) rfl
  have hd := trace_deliveries p.skipAlpParsing _ (p.buffer ++ msg) rfl
  injection h with h1 h2
  split at h2
  · cases h2
  · next hesc =>
    injection h2 with h2
    rw [if_neg hesc] at he
    rw [← h1, ← h2]
    simp only [List.nil_append, Nat.zero_add]
    rw [List.length_append] at ha
    refine ⟨by omega, ⟨_, rfl⟩, by omega, ?_, ?_⟩
    · rcases he with he | he
      · exact .inl he
      · by_cases hr : (trace p.skipAlpParsing (p.buffer ++ msg)).rest = []
        · exact .inl hr
        · exact .inr (front_head hr (.inl he))
    · exact hd.suffix

example : ((Parser.new true).parse ([1, 2] ++ frame 1 4 [65] ++ [0xC0, 0])).2.map
    (fun o => (o.parsed, o.errors.map ErrorInfo.skipped, o.buffer)) = .ok (64, [2], 16) := by
  decide +kernel

/-! ## C36 parse can raise -/

/-- C36 is false: a CRC-valid ALP frame with a forward action to HOST makes `parse` raise IndexError
(from its own error handler). -/
theorem C36_refuted : ∃ msg q, (Parser.new false).parse msg = (q, .error .indexError) :=
  ⟨frame 1 1 [0x32, 0], ⟨frame 1 1 [0x32, 0], false, 0, 1, 0⟩, by decide +kernel⟩

/-- C36, what holds: the only exception is IndexError, only without skip_alp_parsing, and only if the
bytes contain a CRC-valid frame whose ALP payload fails a message-less assertion; the offending
frame then stays at the front of the buffer. In all other cases `parse` returns. -/
theorem C36_raises_partial (p q : Parser) (msg : List UInt8) (e : PyErr)
    (h : p.parse msg = (q, .error e)) :
    e = .indexError ∧ p.skipAlpParsing = false ∧ q.skipAlpParsing = false ∧
    ∃ pre counter type payload after s, p.buffer ++ msg = pre ++ q.buffer ∧
      q.buffer = frame counter type payload ++ after ∧
      payload.length ≤ 255 ∧ type ≠ 4 ∧ type ≠ 5 ∧
      AlpParser.parse payload.length (stream (payload ++ after)) = .err (.assertion false) s := by
  rw [parse_trace, finish] at h
  have he := trace_end p.skipAlpParsing _ (p.buffer ++ msg) rfl
  have hsk := countAll_skip p (trace p.skipAlpParsing (p.buffer ++ msg)).counts
  obtain ⟨pre, hpre⟩ := (trace_deliveries p.skipAlpParsing _ (p.buffer ++ msg) rfl).suffix
  injection h with h1 h2
  split at h2
  · next hesc =>
    injection h2 with h2
    rw [if_pos hesc] at he
    obtain ⟨hs, c, t, pl, after, s, e1, e2, e3, e4, e5⟩ := front_escape he
    rw [← h1]
    exact ⟨h2.symm, hs, hsk.1.trans hs, pre, c, t, pl, after, s, hpre.symm, e1, e2, e3,
      e4, e5⟩
  · cases h2

example : ((Parser.new false).parse (frame 1 4 [65] ++ frame 1 1 [0x32, 0])).2.isOk = false := by decide +kernel

/-- C36, the parser is then stuck for ever: every later call raises again, delivers nothing and
only makes the buffer longer. -/
theorem C36_stuck (p q : Parser) (msg : List UInt8) (e : PyErr) (h : p.parse msg = (q, .error e))
    (more : List UInt8) :
    ∃ q', q.parse more = (q', .error .indexError) ∧ q'.buffer = q.buffer ++ more := by
  rw [parse_trace, finish] at h
  have he := trace_end p.skipAlpParsing _ (p.buffer ++ msg) rfl
  have hsk := countAll_skip p (trace p.skipAlpParsing (p.buffer ++ msg)).counts
  injection h with h1 h2
  split at h2
  · next hesc =>
    rw [if_pos hesc] at he
    have hq : q.skipAlpParsing = p.skipAlpParsing := by rw [← h1]; exact hsk.1
    have hqb : q.buffer = (trace p.skipAlpParsing (p.buffer ++ msg)).rest := by rw [← h1]
    have hap := front_append p.skipAlpParsing q.buffer more
    rw [← hqb] at he
    rw [he] at hap
    have hne : q.buffer ++ more ≠ [] := by
      intro hnil
      rw [hnil] at hap
      cases hap
    rw [parse_trace, finish, hq, trace_escape hne hap]
    exact ⟨_, rfl, rfl⟩
  · cases h2

/-- The stuck parser never delivers the valid frame that follows. -/
example : (feed (Parser.new false) [frame 1 1 [0x32, 0], frame 2 4 [65]]) = .error .indexError := by
  decide +kernel

/-! ## C37 buffering -/

/-- C37 is false: after this frame of 14 bytes (a return-file-data action announcing 2^30-1 data
bytes), the parser delivers nothing, reports nothing and keeps everything it receives in its buffer,
up to 2^30-2 further bytes. -/
theorem C37_refuted (p : Parser) (hb : p.buffer = []) (hs : p.skipAlpParsing = false)
    (x : List UInt8) (hx : x.length < 2 ^ 30 - 1) :
    ∃ q, p.parse (frame 1 1 [0x20, 0x40, 0, 0xFF, 0xFF, 0xFF, 0xFF] ++ x) =
        (q, .ok ⟨[], 0, (14 + x.length) * 8, []⟩) ∧
      q.buffer = frame 1 1 [0x20, 0x40, 0, 0xFF, 0xFF, 0xFF, 0xFF] ++ x := by
  set pl : List UInt8 := [0x20, 0x40, 0, 0xFF, 0xFF, 0xFF, 0xFF] with hpl
  have hv : view (frame 1 1 pl ++ x) = .valid 1 1 7 (pl ++ x) := by
    rw [view_valid]
    exact ⟨by decide, by simp [hpl], rfl⟩
  have hoff : Reads Offset.parse ⟨0x40, ⟨0⟩⟩ (bytesToBits [0x40, 0]) := by
    obtain ⟨bs, e1, -, e2⟩ := Offset.codec (o := ⟨0x40, ⟨0⟩⟩) (by simp [Offset.Ok, Length.Ok, isByte])
    have : bytearray (Offset.iter ⟨0x40, ⟨0⟩⟩) = .ok [0x40, 0] := by decide
    rw [Emits, this] at e1
    cases e1
    exact e2
  have hlen : Reads Length.parse ⟨0x3FFFFFFF⟩ (bytesToBits [0xFF, 0xFF, 0xFF, 0xFF]) := by
    obtain ⟨bs, e1, -, e2⟩ := Length.codec (l := ⟨0x3FFFFFFF⟩) (by simp [Length.Ok])
    have : bytearray (Length.iter ⟨0x3FFFFFFF⟩) = .ok [0xFF, 0xFF, 0xFF, 0xFF] := by decide +kernel
    rw [Emits, this] at e1
    cases e1
    exact e2
  have hact : ∃ s, AlpParser.parseAlpAction ⟨56, bytesToBits (pl ++ x)⟩ = .err .readError s := by
    have hbits : bytesToBits (pl ++ x) = [false] ++ ([false] ++ (bitsOf 6 32 ++
        (bytesToBits [0x40, 0] ++ (bytesToBits [0xFF, 0xFF, 0xFF, 0xFF] ++ bytesToBits x)))) := by
      rw [bytesToBits_append]
      simp only [← List.append_assoc]
      congr 1
    rw [hbits]
    unfold AlpParser.parseAlpAction
    rw [P.bind_apply, Reads.bool]
    simp only
    rw [P.bind_apply, Reads.bool]
    simp only
    rw [P.bind_apply, Reads.uint 6 32 (by decide)]
    simp only
    change ∃ s, AlpParser.parseReturnFileDataAction false false _ = _
    unfold AlpParser.parseReturnFileDataAction AlpParser.parseReturnFileDataOperand
    rw [P.bind_apply, P.bind_apply, hoff]
    simp only
    rw [P.bind_apply, hlen]
    simp only
    rw [P.bind_apply, bytes_short _ _ _ (show x.length < Int.toNat 0x3FFFFFFF by omega)]
    exact ⟨_, rfl⟩
  have hf : front false (frame 1 1 pl ++ x) = .need := by
    unfold front
    rw [hv]
    have hbody : ∃ s, body false 7 (1 : UInt8).toNat ⟨56, bytesToBits (pl ++ x)⟩ =
        .err .readError s := by
      obtain ⟨s, hact⟩ := hact
      refine ⟨s, ?_⟩
      unfold body
      rw [if_neg (by decide), if_neg (by decide), if_neg (by decide), P.bind_apply]
      unfold AlpParser.parse
      rw [P.bind_apply]
      unfold AlpParser.parseActions
      rw [if_pos (by decide)]
      rw [AlpParser.parseLoop_eq _ _ _ _ _ (by norm_num)]
      unfold AlpParser.loop
      rw [if_pos (by decide), hact]
    obtain ⟨s, hbody⟩ := hbody
    simp only [hbody]
  rw [parse_trace, finish, hb, hs, List.nil_append]
  have hlenf : (frame 1 1 pl).length = 14 := rfl
  rw [trace_need (by simp [frame]) hf]
  refine ⟨{ p.countAll [counted (frame 1 1 pl ++ x)] with buffer := frame 1 1 pl ++ x }, ?_, rfl⟩
  simp only [Bool.false_eq_true, if_false, Ev.msgs, Ev.taken, Ev.errs, List.append_nil,
    List.length_append, hlenf, Nat.mul_zero, Nat.add_zero]

/-- C37, what holds: after a call that returns, at most 261 bytes (less than a maximal frame) remain
in the buffer, unless it starts with a complete CRC-valid frame that is not delivered: an ALP frame
whose parser asks for more bytes than the frame (and all that follows) has, or an empty reboot
frame. -/
theorem C37_bounded_partial (p q : Parser) (msg : List UInt8) (o : Output)
    (h : p.parse msg = (q, .ok o)) :
    q.buffer.length ≤ 261 ∨
    ∃ counter type payload after, q.buffer = frame counter type payload ++ after ∧
      payload.length ≤ 255 ∧ type ≠ 4 ∧ type ≠ 5 ∧ p.skipAlpParsing = false ∧
      ∃ s, AlpParser.parse payload.length (stream (payload ++ after)) = .err .readError s := by
  rw [parse_trace, finish] at h
  have he := trace_end p.skipAlpParsing _ (p.buffer ++ msg) rfl
  injection h with h1 h2
  split at h2
  · cases h2
  · next hesc =>
    rw [if_neg hesc] at he
    have hqb : q.buffer = (trace p.skipAlpParsing (p.buffer ++ msg)).rest := by rw [← h1]
    rw [← hqb] at he
    rcases he with he | he
    · left; rw [he]; simp
    · rcases front_need he with h | ⟨c, t, pl, af, e1, e2, e3⟩
      · exact .inl h
      · rcases e3 with ⟨e3, e4, e5⟩ | ⟨e3, e4, e5, e6⟩
        · left; rw [e1, e4, e5]; simp [frame]
        · exact .inr ⟨c, t, pl, af, e1, e2, e4, e3, e5, e6⟩

example : ((Parser.new false).parse (frame 1 4 [65] ++ [0xC0, 0, 1])).2.isOk = true := by decide +kernel

/-! ## C38 skip_alp_parsing -/

/-- C38: with skip_alp_parsing, `parse` returns for all inputs, keeps at most 261 bytes, and every
delivered message other than a reboot is exactly the payload of a CRC-valid frame of the input. -/
theorem C38_skip_mode (p : Parser) (hs : p.skipAlpParsing = true) (msg : List UInt8) :
    ∃ q o, p.parse msg = (q, .ok o) ∧ q.buffer.length ≤ 261 ∧ q.skipAlpParsing = true ∧
      ∀ x ∈ o.cmds, x.1 ≠ 5 → ∃ pre counter type payload after,
        p.buffer ++ msg = pre ++ frame counter type payload ++ after ∧ payload.length ≤ 255 ∧
        x = ((type.toNat : Int), Msg.bytes payload) := by
  cases hr : p.parse msg with
  | mk q r =>
    cases r with
    | error e =>
      have := (C36_raises_partial p q msg e hr).2.1
      rw [hs] at this
      cases this
    | ok o =>
      refine ⟨q, o, rfl, ?_, ?_, ?_⟩
      · rcases C37_bounded_partial p q msg o hr with h | ⟨c, t, pl, af, -, -, -, -, h, -⟩
        · exact h
        · rw [hs] at h; cases h
      · rw [parse_trace, finish] at hr
        injection hr with h1 h2
        rw [← h1, ← hs]
        exact (countAll_skip p _).1
      · intro x hx hx5
        obtain ⟨pre, c, t, pl, after, used, e1, e2, e3, e4⟩ :=
          (C32_sound p q msg o hr).mem x hx
        refine ⟨pre, c, t, pl, after, e1, e2, ?_⟩
        rw [hs] at e4
        obtain ⟨x1, x2⟩ := x
        simp only at e3 e4 hx5
        generalize hd : pl ++ after = data at e4
        generalize hn : pl.length = n at e4
        cases e4 with
        | rebooted r more h => subst h; exact absurd e3 hx5
        | bytes pl' more h1 h2 =>
          have := List.append_inj_left hd (by omega)
          rw [e3, this]
        | alp taken more c h4 h5 h6 => cases h6

example : ((Parser.new true).parse (frame 1 1 [0x32, 0] ++ [0xC0, 0])).2.map (fun o => o.cmds) =
    .ok [(1, .bytes [0x32, 0])] := by decide +kernel

/-- C38, completeness: well-formed frames of any type other than REBOOTED, with any payload, in any
chunking, are delivered as exactly their payloads. -/
theorem C38_frames (p : Parser) (hb : p.buffer = []) (hs : p.skipAlpParsing = true)
    (fs : List (UInt8 × UInt8 × List UInt8))
    (hfs : ∀ f ∈ fs, f.2.1 ≠ 5 ∧ f.2.2.length ≤ 255) (chunks : List (List UInt8))
    (hne : chunks ≠ [])
    (h : chunks.flatten = (fs.map (fun f => frame f.1 f.2.1 f.2.2)).flatten) :
    ∃ q, feed p chunks = .ok (q, fs.map (fun f => ((f.2.1.toNat : Int), .bytes f.2.2)), []) ∧
      q.buffer = [] := by
  have := feed_frames chunks p (fs.map fun f => ⟨f.1, f.2.1, f.2.2, .bytes f.2.2⟩) (by
    intro g hg
    obtain ⟨f, hf, rfl⟩ := List.mem_map.1 hg
    obtain ⟨h5, hl⟩ := hfs f hf
    refine ⟨hl, ?_⟩
    by_cases h4 : f.2.1 = 4
    · simp only [h4]; exact .logging _
    · exact .raw _ _ hs h4 h5) hne (by
    rw [hb, List.nil_append, h, List.map_map]
    rfl)
  simp only [List.map_map] at this
  exact ⟨_, this, rfl⟩

/-- A payload that would raise in ALP mode is delivered verbatim. -/
example : (feed (Parser.new true) [frame 1 1 [0x32, 0], frame 2 1 [0xC0, 0, 0xC0]]).map (·.2.1) =
    .ok [(1, .bytes [0x32, 0]), (1, .bytes [0xC0, 0, 0xC0])] := by decide +kernel

end Verif.Serial
