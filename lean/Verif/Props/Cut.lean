import Verif.Spec.Cut
import Verif.Props.Flips

/-! C100: serial frames that are cut short. -/

namespace Verif.Serial

open Verif

theorem front_noFrame (skip : Bool) {b : List UInt8} (h : NoFrame b) : ∃ pos, front skip b = .bad .parseError pos := by
  cases h with
  | sync x more hx => exact ⟨8, front_nosync skip _ hx⟩
  | version x more hx =>
    refine ⟨16, ?_⟩
    rw [front, show view (0xC0 :: x :: more) = .nosync 16 by simp [view, hx]]
  | crc counter type length crc1 crc2 payload more hl hc =>
    refine ⟨56, ?_⟩
    rw [front, show view ([0xC0, 0, counter, type, length, crc1, crc2] ++ payload ++ more) = .crcBad counter by
      simp only [view, List.cons_append, List.nil_append]
      rw [if_neg (by decide), if_neg (by decide), if_neg (by simp [hl]), ← hl, List.take_left, if_neg hc]]

/-- Bytes in which there is no frame are skipped. -/
theorem trace_noFrame {skip : Bool} (x : List UInt8) : ∀ (g : List UInt8), (∀ s, s ≠ [] → s <:+ g → NoFrame (s ++ x)) →
    Ev.msgs (trace skip (g ++ x)).evs = Ev.msgs (trace skip x).evs ∧ (trace skip (g ++ x)).rest = (trace skip x).rest ∧
      (trace skip (g ++ x)).escaped = (trace skip x).escaped := by
  intro g
  induction g with
  | nil => intro _; exact ⟨rfl, rfl, rfl⟩
  | cons y ys ih =>
    intro h
    obtain ⟨pos, hf⟩ := front_noFrame skip (h (y :: ys) (by simp) List.suffix_rfl)
    have ht := trace_bad (by simp) hf
    obtain ⟨k1, k2, k3⟩ := ih (fun s hs hx => h s hs (hx.trans (List.suffix_cons y ys)))
    obtain ⟨h1, -, h3, h4⟩ := trace_fromSync skip (ys ++ x)
    rw [List.cons_append] at ht
    rw [(skip_cons _ _).1] at ht
    rw [List.cons_append, ht]
    refine ⟨?_, ?_, ?_⟩
    · simp only [Ev.msgs]; rw [← h1, k1]
    · simp only; rw [← h3, k2]
    · simp only; rw [← h4, k3]

theorem isWhole_bytes {x : List UInt8 × Option Nat} (h : isWhole x = true) : cutBytes x = x.1 := by
  unfold isWhole at h
  unfold cutBytes
  split at h
  · rfl
  · exact List.take_of_length_le (by simpa using h)

theorem trace_cuts {skip : Bool} : ∀ (l : List (Sent × Option Nat)), (∀ x ∈ l, x.1.Valid skip) →
    CutsShow (l.map fun x => (x.1.bytes, x.2)) →
    Ev.msgs (trace skip ((l.map fun x => cutBytes (x.1.bytes, x.2)).flatten)).evs =
      (l.filter fun x => isWhole (x.1.bytes, x.2)).map (fun x => x.1.delivered) ∧
    (trace skip ((l.map fun x => cutBytes (x.1.bytes, x.2)).flatten)).rest = [] ∧
    (trace skip ((l.map fun x => cutBytes (x.1.bytes, x.2)).flatten)).escaped = false := by
  intro l
  induction l with
  | nil => intro _ _; rw [List.map_nil, List.flatten_nil, trace_nil]; exact ⟨rfl, rfl, rfl⟩
  | cons a l ih =>
    intro hv hs
    obtain ⟨hs1, hs2⟩ := hs
    obtain ⟨h1, h2, h3⟩ := ih (fun x hx => hv x (by simp [hx])) hs2
    rw [List.map_cons, List.flatten_cons]
    by_cases hw : isWhole (a.1.bytes, a.2) = true
    · obtain ⟨v1, v2⟩ := hv a (by simp)
      rw [isWhole_bytes hw, List.filter_cons_of_pos (by simpa using hw)]
      show Ev.msgs (trace skip (frame a.1.counter a.1.type a.1.payload ++ _)).evs = _ ∧
        (trace skip (frame a.1.counter a.1.type a.1.payload ++ _)).rest = _ ∧
        (trace skip (frame a.1.counter a.1.type a.1.payload ++ _)).escaped = _
      rw [trace_frame v2 v1]
      refine ⟨?_, h2, h3⟩
      simp only [Ev.msgs, List.map_cons, Sent.delivered]
      rw [h1]
      rfl
    · rcases hs1 with hs1 | hs1
      · exact absurd hs1 hw
      · rw [List.map_map] at hs1
        obtain ⟨k1, k2, k3⟩ := trace_noFrame (skip := skip) _ _ hs1
        rw [List.filter_cons_of_neg (by simpa using hw)]
        rw [show cutBytes ∘ (fun x : Sent × Option Nat => (x.1.bytes, x.2)) = fun x => cutBytes (x.1.bytes, x.2) from rfl]
          at k1 k2 k3
        rw [k1, k2, k3]
        exact ⟨h1, h2, h3⟩

/-- C100: a sequence of frames some of which are cut short, in any chunks: if the cuts show in the bytes that follow, the
messages of the whole frames are delivered, in order, and nothing else. -/
theorem C100_line_partial (p : Parser) (hp : p.buffer = []) (l : List (Sent × Option Nat))
    (hv : ∀ x ∈ l, x.1.Valid p.skipAlpParsing) (hs : CutsShow (l.map fun x => (x.1.bytes, x.2)))
    (chunks : List (List UInt8)) (hne : chunks ≠ [])
    (h : chunks.flatten = (l.map fun x => cutBytes (x.1.bytes, x.2)).flatten) :
    ∃ q errors, feed p chunks =
        .ok (q, (l.filter fun x => isWhole (x.1.bytes, x.2)).map (fun x => x.1.delivered), errors) ∧ q.buffer = [] := by
  obtain ⟨h1, h2, h3⟩ := trace_cuts l hv hs
  have := feed_trace chunks p hne
  rw [hp, List.nil_append, h, h3, h1, h2] at this
  simp only [Bool.false_eq_true, if_false] at this
  obtain ⟨q, es, k1, k2, -⟩ := this
  exact ⟨q, es, k1, k2⟩

/-- Two log messages; the first one is cut after its third letter. -/
example : CutsShow [(frame 1 4 [65, 66, 67, 68], some 10), (frame 2 4 [69], none)] ∧
    (feed (Parser.new true) [(frame 1 4 [65, 66, 67, 68]).take 10 ++ [0xC0], (frame 2 4 [69]).tail]).map (fun x => x.2.1) =
      .ok [(4, .bytes [69])] := by
  refine ⟨⟨.inr fun s hs h => ?_, .inl rfl, trivial⟩, by decide +kernel⟩
  by_cases e : s = cutBytes (frame 1 4 [65, 66, 67, 68], some 10)
  · subst e
    exact .crc 1 4 4 (Crc.calculateCrc [65, 66, 67, 68]).1 (Crc.calculateCrc [65, 66, 67, 68]).2 ([65, 66, 67] ++ [0xC0])
      (frame 2 4 [69]).tail rfl (by decide +kernel)
  · obtain ⟨y, ys, rfl⟩ := List.exists_cons_of_ne_nil hs
    refine .sync y _ ?_
    have : y :: ys <:+ (cutBytes (frame 1 4 [65, 66, 67, 68], some 10)).tail := by
      rcases List.suffix_cons_iff.1 (show y :: ys <:+ 0xC0 :: (cutBytes (frame 1 4 [65, 66, 67, 68], some 10)).tail from h) with h | h
      · exact absurd h e
      · exact h
    have hy : y ∈ (cutBytes (frame 1 4 [65, 66, 67, 68], some 10)).tail := this.subset (by simp)
    intro e
    rw [e] at hy
    exact absurd hy (by decide +kernel)

theorem feed_short : ∀ (chunks : List (List UInt8)) (p : Parser), chunks ≠ [] → view (p.buffer ++ chunks.flatten) = .short →
    feed p chunks = .ok ({ p with buffer := p.buffer ++ chunks.flatten }, [], []) := by
  intro chunks
  induction chunks with
  | nil => intro p h; exact absurd rfl h
  | cons c cs ih =>
    intro p _ h
    rw [List.flatten_cons, ← List.append_assoc] at h
    have hv : view (p.buffer ++ c) = .short := by
      have := view_append (p.buffer ++ c) cs.flatten
      rw [h] at this
      cases hv : view (p.buffer ++ c) with
      | short => rfl
      | _ => rw [hv] at this; cases this
    have ht : trace p.skipAlpParsing (p.buffer ++ c) = ⟨[], (trace p.skipAlpParsing (p.buffer ++ c)).counts, p.buffer ++ c, false⟩ ∧
        p.countAll (trace p.skipAlpParsing (p.buffer ++ c)).counts = p := by
      by_cases hb : p.buffer ++ c = []
      · rw [hb, trace_nil]; exact ⟨rfl, rfl⟩
      · have hc : counted (p.buffer ++ c) = none := by unfold counted; rw [hv]
        rw [trace_need hb (by unfold front; rw [hv]), hc]; exact ⟨rfl, rfl⟩
    have hp : p.parse c = ({ p with buffer := p.buffer ++ c }, .ok ⟨[], 0, (p.buffer ++ c).length * 8, []⟩) := by
      rw [parse_trace, finish, ht.2, ht.1]
      simp [Ev.msgs, Ev.taken, Ev.errs]
    unfold feed
    rw [hp]
    by_cases hcs : cs = []
    · subst hcs; simp [feed]
    · have := ih { p with buffer := p.buffer ++ c } hcs h
      simp only [this]
      simp

/-- C100: as long as fewer bytes follow than are missing, they are taken for the rest of the frame: whatever they are, nothing
is delivered, reported or counted, and all of them are kept. -/
theorem C100_waits (p : Parser) (hp : p.buffer = []) (counter type : UInt8) (payload x : List UInt8)
    (hl : payload.length ≤ 255) (k : Nat) (hk : 5 ≤ k) (hx : k + x.length < (frame counter type payload).length)
    (chunks : List (List UInt8)) (hne : chunks ≠ []) (h : chunks.flatten = (frame counter type payload).take k ++ x) :
    feed p chunks = .ok ({ p with buffer := (frame counter type payload).take k ++ x }, [], []) := by
  have hn : (UInt8.ofNat payload.length).toNat = payload.length := by rw [UInt8.toNat_ofNat']; omega
  have hv : view ((frame counter type payload).take k ++ x) = .short := by
    obtain ⟨j, rfl⟩ : ∃ j, k = j + 5 := ⟨k - 5, by omega⟩
    have hlen : (((frame counter type payload).drop 5).take j ++ x).length < payload.length + 2 := by
      simp [frame] at hx ⊢; omega
    have e : (frame counter type payload).take (j + 5) ++ x =
        0xC0 :: 0 :: counter :: type :: UInt8.ofNat payload.length :: (((frame counter type payload).drop 5).take j ++ x) := by
      simp [frame]
    rw [e]
    generalize ((frame counter type payload).drop 5).take j ++ x = r at hlen
    match r with
    | [] => rfl
    | [_] => rfl
    | k1 :: k2 :: rest =>
      simp only [view]
      rw [if_neg (by decide), if_neg (by decide), if_pos (by rw [hn]; simp at hlen; omega)]
  have := feed_short chunks p hne (by rw [hp, List.nil_append, h]; exact hv)
  rw [this, hp, List.nil_append, h]

/-- A log message of 40 letters is cut after one letter by a reset; the reboot message after it is not delivered. -/
example : 8 + (frame 0 5 [1]).length < (frame 1 4 (List.replicate 40 65)).length ∧
    feed (Parser.new false) [(frame 1 4 (List.replicate 40 65)).take 8, frame 0 5 [1]] =
      .ok ({ Parser.new false with buffer := (frame 1 4 (List.replicate 40 65)).take 8 ++ frame 0 5 [1] }, [], []) := by
  decide +kernel

/-- C100: a frame that is cut after its first byte, or after its counter, always shows when the next frame begins (in the
latter case unless it has the message type 255). -/
theorem C100_beginning (counter type : UInt8) (payload : List UInt8) (g : Sent) (l : List (List UInt8 × Option Nat))
    (k : Nat) (hk : k = 1 ∨ k = 3 ∧ g.type ≠ 0xFF ∧ counter ≠ 0xC0) (hs : CutsShow l) :
    CutsShow ((frame counter type payload, some k) :: (g.bytes, none) :: l) := by
  refine ⟨.inr fun s hne h => ?_, .inl rfl, hs⟩
  have hcut : ∀ k, cutBytes (frame counter type payload, some k) = (frame counter type payload).take k := fun _ => rfl
  have hg : (List.map cutBytes ((g.bytes, none) :: l)).flatten = g.bytes ++ (l.map cutBytes).flatten := by simp [cutBytes]
  rw [hcut] at h
  rw [hg]
  generalize (l.map cutBytes).flatten = more
  rcases hk with rfl | ⟨rfl, ht, hc⟩
  · have e : (frame counter type payload).take 1 = [0xC0] := by simp [frame]
    rw [e] at h
    rcases List.suffix_cons_iff.1 h with h | h
    · rw [h]
      exact .version 0xC0 _ (by decide)
    · exact absurd (List.suffix_nil.1 h) hne
  · have e : (frame counter type payload).take 3 = [0xC0, 0, counter] := by simp [frame]
    rw [e] at h
    rcases List.suffix_cons_iff.1 h with h | h
    · rw [h]
      refine .crc counter 0xC0 0 g.counter g.type [] _ rfl ?_
      intro e
      have := congrArg Prod.snd e
      exact ht (this.symm.trans (by decide +kernel))
    · rcases List.suffix_cons_iff.1 h with h | h
      · rw [h]; exact .sync 0 _ (by decide)
      · rcases List.suffix_cons_iff.1 h with h | h
        · rw [h]; exact .sync counter _ hc
        · exact absurd (List.suffix_nil.1 h) hne

/-- A line with two such cuts. -/
example : CutsShow [(frame 1 4 [65], some 1), ((⟨2, 4, [66], .bytes [66]⟩ : Sent).bytes, none), (frame 3 4 [67], some 3),
    ((⟨4, 5, [1], .rebooted 1⟩ : Sent).bytes, none)] :=
  C100_beginning 1 4 [65] _ _ 1 (.inl rfl) (C100_beginning 3 4 [67] _ _ 3 (.inr ⟨rfl, by decide, by decide⟩) trivial)

theorem no_sync {s b x : List UInt8} (hb : 0xC0 ∉ b) (hs : s ≠ []) (h : s <:+ b) : NoFrame (s ++ x) := by
  obtain ⟨y, ys, rfl⟩ := List.exists_cons_of_ne_nil hs
  exact .sync y _ fun e => hb (e ▸ h.subset (by simp))

theorem trace_whole {skip : Bool} (l : List Sent) (hl : ∀ g ∈ l, g.Valid skip) :
    Ev.msgs (trace skip (l.map Sent.bytes).flatten).evs = l.map Sent.delivered ∧
      (trace skip (l.map Sent.bytes).flatten).rest = [] ∧ (trace skip (l.map Sent.bytes).flatten).escaped = false := by
  induction l with
  | nil => rw [List.map_nil, List.flatten_nil, trace_nil]; exact ⟨rfl, rfl, rfl⟩
  | cons a l ih =>
    obtain ⟨h1, h2, h3⟩ := ih (fun x hx => hl x (by simp [hx]))
    obtain ⟨v1, v2⟩ := hl a (by simp)
    rw [List.map_cons, List.flatten_cons, Sent.bytes, trace_frame v2 v1]
    refine ⟨?_, h2, h3⟩
    simp only [Ev.msgs, List.map_cons, Sent.delivered]
    rw [h1]

/-- C100: a frame of which the last byte or the last two bytes are missing, and more frames. If the missing bytes are the first
bytes of the next frame, the message is delivered all the same and the next one is lost instead; otherwise exactly the messages
of the other frames are delivered. -/
theorem C100_end (p : Parser) (hp : p.buffer = []) (f g : Sent) (l : List Sent) (hf : f.Valid p.skipAlpParsing)
    (hg : g.Valid p.skipAlpParsing) (hl : ∀ x ∈ l, x.Valid p.skipAlpParsing) (m : Nat) (hm : m = 1 ∨ m = 2)
    (hle : m ≤ f.payload.length) (hc : 0xC0 ∉ (f.bytes.take (f.bytes.length - m)).tail) (chunks : List (List UInt8))
    (hne : chunks ≠ [])
    (h : chunks.flatten = f.bytes.take (f.bytes.length - m) ++ (g.bytes ++ (l.map Sent.bytes).flatten)) :
    (f.payload.drop (f.payload.length - m) ≠ [0xC0, 0].take m →
      ∃ q errors, feed p chunks = .ok (q, (g :: l).map Sent.delivered, errors) ∧ q.buffer = []) ∧
    (f.payload.drop (f.payload.length - m) = [0xC0, 0].take m → 0xC0 ∉ g.bytes.tail →
      ∃ q errors, feed p chunks = .ok (q, (f :: l).map Sent.delivered, errors) ∧ q.buffer = []) := by
  have hft := feed_trace chunks p hne
  rw [hp, List.nil_append, h] at hft
  have hn : (UInt8.ofNat f.payload.length).toNat = f.payload.length := by
    have := hf.1; rw [UInt8.toNat_ofNat']; omega
  have hcut : f.bytes.take (f.bytes.length - m) = f.bytes.take 7 ++ f.payload.take (f.payload.length - m) := by
    have : f.bytes = f.bytes.take 7 ++ f.payload := by simp [Sent.bytes, frame]
    have h7 : (f.bytes.take 7).length = 7 := by simp [Sent.bytes, frame]
    have hlen : f.bytes.length = 7 + f.payload.length := by simp [Sent.bytes, frame]; omega
    have h8 : f.bytes.length - m = (f.bytes.take 7).length + (f.payload.length - m) := by rw [h7]; omega
    rw [h8]
    conv_lhs => arg 2; rw [this]
    exact List.take_length_add_append _
  have hgm : g.bytes = [0xC0, 0].take m ++ g.bytes.drop m := by
    rcases hm with rfl | rfl <;> simp [Sent.bytes, frame]
  refine ⟨fun hd => ?_, fun hd hgc => ?_⟩
  · have hno : ∀ s, s ≠ [] → s <:+ f.bytes.take (f.bytes.length - m) →
        NoFrame (s ++ (g.bytes ++ (l.map Sent.bytes).flatten)) := by
      intro s hs hx
      have h0 : f.bytes.take (f.bytes.length - m) = 0xC0 :: (f.bytes.take (f.bytes.length - m)).tail := by
        rw [hcut]; simp [Sent.bytes, frame]
      rw [h0] at hx
      rcases List.suffix_cons_iff.1 hx with hx | hx
      · rw [hx, ← h0, hcut, hgm]
        have e : f.bytes.take 7 ++ f.payload.take (f.payload.length - m) ++
            ([0xC0, 0].take m ++ g.bytes.drop m ++ (l.map Sent.bytes).flatten) =
            [0xC0, 0, f.counter, f.type, UInt8.ofNat f.payload.length, (Crc.calculateCrc f.payload).1,
              (Crc.calculateCrc f.payload).2] ++ (f.payload.take (f.payload.length - m) ++ [0xC0, 0].take m) ++
              (g.bytes.drop m ++ (l.map Sent.bytes).flatten) := by
          simp [Sent.bytes, frame]
        rw [e]
        refine .crc _ _ _ _ _ _ _ ?_ ?_
        · rw [hn]; rcases hm with rfl | rfl <;> simp <;> omega
        · refine (C33_burst f.payload _ ⟨bytesToBits (f.payload.take (f.payload.length - m)),
            bytesToBits (f.payload.drop (f.payload.length - m)), bytesToBits ([0xC0, 0].take m), [], ?_, ?_, ?_, ?_, ?_⟩).symm
          · rw [List.append_nil, ← bytesToBits_append, List.take_append_drop]
          · rw [List.append_nil, ← bytesToBits_append]
          · rcases hm with rfl | rfl <;> simp <;> omega
          · rcases hm with rfl | rfl <;> simp <;> omega
          · exact fun e => hd (bytesToBits_inj e)
      · exact no_sync hc hs hx
    obtain ⟨k1, k2, k3⟩ := trace_noFrame (skip := p.skipAlpParsing) _ _ hno
    obtain ⟨h1, h2, h3⟩ := trace_whole (skip := p.skipAlpParsing) (g :: l) (by simpa using ⟨hg, hl⟩)
    rw [List.map_cons, List.flatten_cons] at h1 h2 h3
    rw [k1, k2, k3, h1, h2, h3] at hft
    simp only [Bool.false_eq_true, if_false] at hft
    obtain ⟨q, es, j1, j2, -⟩ := hft
    exact ⟨q, es, j1, j2⟩
  · have e : f.bytes.take (f.bytes.length - m) ++ (g.bytes ++ (l.map Sent.bytes).flatten) =
        frame f.counter f.type f.payload ++ (g.bytes.drop m ++ (l.map Sent.bytes).flatten) := by
      rw [hcut]
      conv_lhs => rw [hgm, ← hd]
      rw [← List.append_assoc, ← List.append_assoc, List.append_assoc (f.bytes.take 7), List.take_append_drop,
        List.append_assoc]
      simp [Sent.bytes, frame]
    rw [e, trace_frame hf.2 hf.1] at hft
    have hno : ∀ s, s ≠ [] → s <:+ g.bytes.drop m → NoFrame (s ++ (l.map Sent.bytes).flatten) := by
      intro s hs hx
      refine no_sync hgc hs (hx.trans ?_)
      rcases hm with rfl | rfl
      · rw [List.drop_one]; exact List.suffix_rfl
      · rw [← List.drop_one]; exact List.drop_suffix_drop_left _ (by decide)
    obtain ⟨k1, k2, k3⟩ := trace_noFrame (skip := p.skipAlpParsing) _ _ hno
    obtain ⟨h1, h2, h3⟩ := trace_whole (skip := p.skipAlpParsing) l hl
    simp only [k1, k2, k3, h1, h2, h3, Ev.msgs, Bool.false_eq_true, if_false] at hft
    obtain ⟨q, es, j1, j2, -⟩ := hft
    exact ⟨q, es, j1, j2⟩

/-- A log message that ends with 0xC0 and 0, one that does not, and a third message behind them. -/
example : (feed (Parser.new true) [(frame 1 4 [65, 0xC0, 0]).take 8 ++ frame 2 4 [66] ++ frame 3 4 [67]]).map (fun x => x.2.1) =
      .ok [(4, .bytes [65, 0xC0, 0]), (4, .bytes [67])] ∧
    (feed (Parser.new true) [(frame 1 4 [65, 0xC0, 1]).take 8 ++ frame 2 4 [66] ++ frame 3 4 [67]]).map (fun x => x.2.1) =
      .ok [(4, .bytes [66]), (4, .bytes [67])] := by decide +kernel

/-- C100, full statement: a frame that is cut never leads to another message than those sent. This is false: for every frame
`g` there is a log message whose frame, cut after the header and followed by `g`, is delivered as another log message, and the
message of `g` is lost. -/
theorem C100_mixed_refuted (p : Parser) (hp : p.buffer = []) (g : Sent) (hg : g.bytes.length ≤ 255) (counter : UInt8) :
    ∃ payload, payload.length = g.bytes.length ∧ payload ≠ g.bytes ∧
      ∃ q errors, feed p [(frame counter 4 payload).take 7 ++ g.bytes] = .ok (q, [(4, .bytes g.bytes)], errors) ∧
        q.buffer = [] := by
  obtain ⟨a, b, c, v, hv⟩ : ∃ a b c v, g.bytes = [a, b, c] ++ v := ⟨_, _, _, _, rfl⟩
  have hx : [a ^^^ 1, b ^^^ 16, c ^^^ 33] = List.zipWith (· ^^^ ·) [a, b, c] [1, 16, 33] := rfl
  have hc : Crc.calculateCrc ([a ^^^ 1, b ^^^ 16, c ^^^ 33] ++ v) = Crc.calculateCrc ([a, b, c] ++ v) := by
    rw [hx]
    exact Crc.crc_unseen [] v [a, b, c] [1, 16, 33] rfl (by decide +kernel)
  refine ⟨[a ^^^ 1, b ^^^ 16, c ^^^ 33] ++ v, by rw [hv]; rfl, ?_, ?_⟩
  · rw [hv]
    intro h
    have h := (C98_four_refuted 0 0 [] v a b c).2.2
    simp only [List.nil_append] at h
    contradiction
  · have e : (frame counter 4 ([a ^^^ 1, b ^^^ 16, c ^^^ 33] ++ v)).take 7 ++ g.bytes = frame counter 4 g.bytes := by
      rw [hv]
      unfold frame
      rw [hc]
      simp
    rw [e]
    have hft := feed_trace [frame counter 4 g.bytes] p (by simp)
    obtain ⟨h1, h2, h3⟩ := trace_whole (skip := p.skipAlpParsing) [⟨counter, 4, g.bytes, .bytes g.bytes⟩]
      (by simpa using ⟨hg, .logging _⟩)
    have e2 : p.buffer ++ [frame counter 4 g.bytes].flatten =
        ([(⟨counter, 4, g.bytes, .bytes g.bytes⟩ : Sent)].map Sent.bytes).flatten := by rw [hp]; rfl
    rw [e2, h1, h2, h3] at hft
    simp only [Bool.false_eq_true, if_false] at hft
    obtain ⟨q, es, j1, j2, -⟩ := hft
    exact ⟨q, es, j1, j2⟩

/-- A reboot message that is swallowed. -/
example : ∃ payload : List UInt8, payload ≠ frame 0 5 [1] ∧
    (feed (Parser.new false) [(frame 7 4 payload).take 7 ++ frame 0 5 [1]]).map (fun x => x.2.1) =
      .ok [(4, .bytes (frame 0 5 [1]))] :=
  ⟨[0xC1, 16, 33] ++ (frame 0 5 [1]).drop 3, by decide +kernel, by decide +kernel⟩

end Verif.Serial
