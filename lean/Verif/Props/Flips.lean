import Verif.Spec.Flips
import Verif.Lemmas.CrcWord
import Verif.Props.Damage

/-! C98: flipped bits anywhere in a serial frame. -/

namespace Verif.Serial

open Verif

theorem flips_append {x y x' y' : List UInt8} (h : x.length = y.length) : flips (x ++ x') (y ++ y') = flips x y + flips x' y' := by
  unfold flips
  rw [bytesToBits_append, bytesToBits_append]
  exact Crc.diff_append (by simp [h])

/-- The header check refuses a frame with flipped bits. -/
theorem front_flipped (skip : Bool) (counter type : UInt8) (payload x g : List UInt8) (hl : payload.length ≤ 255)
    (hg : g.length = (frame counter type payload).length) (h3 : g[3]? = some type)
    (h4 : g[4]? = some (UInt8.ofNat payload.length))
    (hd : g.take 2 ≠ [0xC0, 0] ∨
      (let n := flips ((frame counter type payload).drop 5) (g.drop 5); n = 2 ∨ n % 2 = 1)) :
    ∃ pos, front skip (g ++ x) = .bad .parseError pos := by
  have hn : (UInt8.ofNat payload.length).toNat = payload.length := by rw [UInt8.toNat_ofNat']; omega
  match g, hg, h3, h4, hd with
  | g0 :: g1 :: g2 :: g3 :: g4 :: k1 :: k2 :: q, hg, h3, h4, hd =>
    have hq : q.length = payload.length := by simp [frame] at hg; omega
    simp only [List.getElem?_cons_succ, List.getElem?_cons_zero, Option.some.injEq] at h3 h4
    by_cases e0 : g0 = 0xC0
    · by_cases e1 : g1 = 0
      · rcases hd with hd | hd
        · exact absurd (by simp [e0, e1]) hd
        · have hne : Crc.calculateCrc q ≠ (k1, k2) := by
            refine Crc.crc_flips hl hq ?_
            have h5 : flips ((frame counter type payload).drop 5) ((g0 :: g1 :: g2 :: g3 :: g4 :: k1 :: k2 :: q).drop 5) =
                flips [(Crc.calculateCrc payload).1, (Crc.calculateCrc payload).2] [k1, k2] + flips payload q := by
              rw [← flips_append (by simp)]
              simp [frame]
            rw [h5] at hd
            exact hd
          refine ⟨56, ?_⟩
          rw [front, show view (g0 :: g1 :: g2 :: g3 :: g4 :: k1 :: k2 :: q ++ x) = .crcBad g2 by
            simp only [view, List.cons_append, e0, e1, ne_eq, not_true_eq_false, if_false, h4, hn]
            rw [if_neg (by simp [hq]), ← hq, List.take_left, if_neg hne]]
      · refine ⟨16, ?_⟩
        rw [front, show view (g0 :: g1 :: g2 :: g3 :: g4 :: k1 :: k2 :: q ++ x) = .nosync 16 by simp [view, e0, e1]]
    · exact ⟨8, front_nosync skip _ (by simpa using e0)⟩
  | [], hg, _, _, _ | [_], hg, _, _, _ | [_, _], hg, _, _, _ | [_, _, _], hg, _, _, _ | [_, _, _, _], hg, _, _, _
  | [_, _, _, _, _], hg, _, _, _ | [_, _, _, _, _, _], hg, _, _, _ => simp [frame] at hg

/-- At most three bits are flipped, and not all of them in the counter. -/
theorem few_flips {counter type : UInt8} {payload g : List UInt8}
    (hg : g.length = (frame counter type payload).length) (h3 : g[3]? = some type)
    (h4 : g[4]? = some (UInt8.ofNat payload.length)) (h : flips (frame counter type payload) g ≤ 3)
    (hc : ∃ i, i ≠ 2 ∧ g[i]? ≠ (frame counter type payload)[i]?) :
    g.take 2 ≠ [0xC0, 0] ∨ (let n := flips ((frame counter type payload).drop 5) (g.drop 5); n = 2 ∨ n % 2 = 1) := by
  by_cases ht : g.take 2 = [0xC0, 0]
  · refine .inr ?_
    have hle : flips ((frame counter type payload).drop 5) (g.drop 5) ≤ 3 := by
      have e1 := List.take_append_drop 5 (frame counter type payload)
      have e2 := List.take_append_drop 5 g
      rw [← e1, ← e2, flips_append (by simp [hg])] at h
      omega
    have hpos : flips ((frame counter type payload).drop 5) (g.drop 5) ≠ 0 := by
      intro h0
      have h0 := bytesToBits_inj (Crc.diff_zero (by simp [hg]) h0)
      obtain ⟨i, hi, hne⟩ := hc
      apply hne
      by_cases h5 : 5 ≤ i
      · have := congrArg (fun l : List UInt8 => l[i - 5]?) h0
        simp only [List.getElem?_drop, show 5 + (i - 5) = i by omega] at this
        exact this.symm
      · have e0 := congrArg (fun l : List UInt8 => l[0]?) ht
        have e1 := congrArg (fun l : List UInt8 => l[1]?) ht
        simp only [List.getElem?_take, Nat.zero_lt_succ, Nat.one_lt_ofNat, if_true] at e0 e1
        have : i = 0 ∨ i = 1 ∨ i = 3 ∨ i = 4 := by omega
        rcases this with rfl | rfl | rfl | rfl
        · rw [e0]; simp [frame]
        · rw [e1]; simp [frame]
        · rw [h3]; simp [frame]
        · rw [h4]; simp [frame]
    show _ = 2 ∨ _ % 2 = 1
    omega
  · exact .inl ht

/-- C98: a frame in which up to three bits are flipped, anywhere but in the message type and the length and not only in the
counter, is refused: the first reported error is about this buffer, and messages are only found in the bytes after the first
one. -/
theorem C98_refused_partial (r r' : Parser) (hr : r.buffer = []) (counter type : UInt8) (payload x g : List UInt8)
    (hl : payload.length ≤ 255) (hg : g.length = (frame counter type payload).length) (h3 : g[3]? = some type)
    (h4 : g[4]? = some (UInt8.ofNat payload.length)) (h : flips (frame counter type payload) g ≤ 3)
    (hc : ∃ i, i ≠ 2 ∧ g[i]? ≠ (frame counter type payload)[i]?) (o : Output) (ho : r.parse (g ++ x) = (r', .ok o)) :
    (∃ pos skipped, o.errors.head? = some ⟨.parseError, g ++ x, pos, skipped⟩) ∧
      Deliveries r.skipAlpParsing (g ++ x).tail o.cmds r'.buffer := by
  obtain ⟨pos, hf⟩ := front_flipped r.skipAlpParsing counter type payload x g hl hg h3 h4 (few_flips hg h3 h4 h hc)
  have hne : g ≠ [] := by rintro rfl; simp [frame] at hg
  obtain ⟨⟨k, h5⟩, h6⟩ := refused hr (by simp [hne]) hf ho
  exact ⟨⟨pos, k, h5⟩, h6⟩

/-- One flipped bit in the counter, one in the CRC and one in the payload. -/
example : flips (frame 1 4 [65, 66]) [0xC0, 0, 3, 4, 2, (Crc.calculateCrc [65, 66]).1 ^^^ 128,
      (Crc.calculateCrc [65, 66]).2, 64, 66] = 3 ∧
    ((Parser.new true).parse ([0xC0, 0, 3, 4, 2, (Crc.calculateCrc [65, 66]).1 ^^^ 128, (Crc.calculateCrc [65, 66]).2, 64, 66] ++
      frame 2 4 [67])).2.map (fun o => (o.cmds, o.errors.length)) = .ok ([(4, .bytes [67])], 1) := by decide +kernel

/-- C98: the same of any odd number of flipped bits in the CRC and the payload, whatever happens to the counter. -/
theorem C98_odd (r r' : Parser) (hr : r.buffer = []) (counter type : UInt8) (payload x g : List UInt8)
    (hl : payload.length ≤ 255) (hg : g.length = (frame counter type payload).length) (h3 : g[3]? = some type)
    (h4 : g[4]? = some (UInt8.ofNat payload.length))
    (h : flips ((frame counter type payload).drop 5) (g.drop 5) % 2 = 1) (o : Output) (ho : r.parse (g ++ x) = (r', .ok o)) :
    (∃ pos skipped, o.errors.head? = some ⟨.parseError, g ++ x, pos, skipped⟩) ∧
      Deliveries r.skipAlpParsing (g ++ x).tail o.cmds r'.buffer := by
  obtain ⟨pos, hf⟩ := front_flipped r.skipAlpParsing counter type payload x g hl hg h3 h4 (.inr (.inr h))
  have hne : g ≠ [] := by rintro rfl; simp [frame] at hg
  obtain ⟨⟨k, h5⟩, h6⟩ := refused hr (by simp [hne]) hf ho
  exact ⟨⟨pos, k, h5⟩, h6⟩

/-- Five flipped bits. -/
example : flips ((frame 1 4 [65, 66]).drop 5) [(Crc.calculateCrc [65, 66]).1 ^^^ 1, (Crc.calculateCrc [65, 66]).2, 78, 66] =
      5 ∧
    ((Parser.new true).parse ([0xC0, 0, 1, 4, 2, (Crc.calculateCrc [65, 66]).1 ^^^ 1, (Crc.calculateCrc [65, 66]).2, 78, 66])).2.map
      (fun o => (o.cmds, o.errors.length)) = .ok ([], 1) := by decide +kernel

/-- C98: if nothing in such a frame looks like the beginning of another one, what is delivered is what is delivered without
this frame. -/
theorem C98_skipped_partial (r : Parser) (hr : r.buffer = []) (counter type : UInt8) (payload x g : List UInt8)
    (hl : payload.length ≤ 255) (hg : g.length = (frame counter type payload).length) (h3 : g[3]? = some type)
    (h4 : g[4]? = some (UInt8.ofNat payload.length))
    (h : (flips (frame counter type payload) g ≤ 3 ∧ ∃ i, i ≠ 2 ∧ g[i]? ≠ (frame counter type payload)[i]?) ∨
      flips ((frame counter type payload).drop 5) (g.drop 5) % 2 = 1)
    (hc : 0xC0 ∉ g.tail) :
    match r.parse x with
    | (s, .ok o) => ∃ s' o', r.parse (g ++ x) = (s', .ok o') ∧ o'.cmds = o.cmds ∧ s'.buffer = s.buffer
    | (_, .error e) => ∃ s', r.parse (g ++ x) = (s', .error e) := by
  have hd : g.take 2 ≠ [0xC0, 0] ∨
      (let n := flips ((frame counter type payload).drop 5) (g.drop 5); n = 2 ∨ n % 2 = 1) := by
    rcases h with ⟨h, h'⟩ | h
    · exact few_flips hg h3 h4 h h'
    · exact .inr (.inr h)
  obtain ⟨pos, hf⟩ := front_flipped r.skipAlpParsing counter type payload x g hl hg h3 h4 hd
  exact refused_skipped hr (by rintro rfl; simp [frame] at hg) hf hc

/-- Two flipped bits, one in the first sync byte. -/
example : flips (frame 1 4 [65, 66]) ([0xC1, 0, 1, 4, 2] ++ (frame 1 4 [65, 66]).drop 5 |>.set 8 67) = 2 ∧
    (0xC0 : UInt8) ∉ ([0xC1, 0, 1, 4, 2] ++ (frame 1 4 [65, 66]).drop 5 |>.set 8 67).tail := by decide +kernel

theorem trace_spoiled {skip : Bool} {f : Sent} (hf : f.Valid skip) {g : List UInt8} (h : Spoiled f.bytes g) (x : List UInt8) :
    Ev.msgs (trace skip (g ++ x)).evs = Ev.msgs (trace skip x).evs ∧ (trace skip (g ++ x)).rest = (trace skip x).rest ∧
      (trace skip (g ++ x)).escaped = (trace skip x).escaped := by
  obtain ⟨hg, h3, h4, hd, hc⟩ := h
  have h3 : g[3]? = some f.type := h3.trans (by simp [Sent.bytes, frame])
  have h4 : g[4]? = some (UInt8.ofNat f.payload.length) := h4.trans (by simp [Sent.bytes, frame])
  have hd : g.take 2 ≠ [0xC0, 0] ∨
      (let n := flips ((frame f.counter f.type f.payload).drop 5) (g.drop 5); n = 2 ∨ n % 2 = 1) := by
    rcases hd with ⟨h, h'⟩ | h
    · exact few_flips hg h3 h4 h h'
    · exact .inr (.inr h)
  obtain ⟨pos, hf⟩ := front_flipped skip f.counter f.type f.payload x g hf.1 hg h3 h4 hd
  obtain ⟨y, ys, rfl⟩ : ∃ y ys, g = y :: ys := List.exists_cons_of_ne_nil (by rintro rfl; simp [Sent.bytes, frame] at hg)
  have ht := trace_bad (by simp) hf
  have he : (skipBadBufferContent (y :: ys ++ x)).1 = fromSync x := by
    have hc : 0xC0 ∉ ys := hc
    rw [List.cons_append, (skip_cons _ _).1, fromSync_append, if_pos (fromSync_none hc)]
  rw [he] at ht
  obtain ⟨h1, h2, h3, h4⟩ := trace_fromSync skip x
  rw [ht]
  exact ⟨by simp [Ev.msgs, h1], h3.symm, h4.symm⟩

theorem trace_line {skip : Bool} : ∀ (l : List Passed), (∀ x ∈ l, x.sent.Valid skip) →
    (∀ x ∈ l, ∀ g, x.spoiled = some g → Spoiled x.sent.bytes g) →
    Ev.msgs (trace skip (l.map Passed.bytes).flatten).evs =
      (l.filter fun x => x.spoiled.isNone).map (fun x => x.sent.delivered) ∧
    (trace skip (l.map Passed.bytes).flatten).rest = [] ∧ (trace skip (l.map Passed.bytes).flatten).escaped = false := by
  intro l
  induction l with
  | nil => intro _ _; rw [List.map_nil, List.flatten_nil, trace_nil]; exact ⟨rfl, rfl, rfl⟩
  | cons a l ih =>
    intro hv hs
    obtain ⟨h1, h2, h3⟩ := ih (fun x hx => hv x (by simp [hx])) (fun x hx => hs x (by simp [hx]))
    rw [List.map_cons, List.flatten_cons]
    cases hg : a.spoiled with
    | none =>
      have hb : a.bytes = frame a.sent.counter a.sent.type a.sent.payload := by simp [Passed.bytes, hg, Sent.bytes]
      obtain ⟨v1, v2⟩ := hv a (by simp)
      rw [hb, trace_frame v2 v1]
      refine ⟨?_, h2, h3⟩
      simp [Ev.msgs, hg, Sent.delivered]
      exact h1
    | some g =>
      have hb : a.bytes = g := by simp [Passed.bytes, hg]
      obtain ⟨k1, k2, k3⟩ := trace_spoiled (hv a (by simp)) (hs a (by simp) g hg) (l.map Passed.bytes).flatten
      rw [hb, k1, k2, k3]
      refine ⟨?_, h2, h3⟩
      rw [List.filter_cons_of_neg (by simp [hg]), h1]

/-- C98: a sequence of frames over a line that spoils some of them, in any chunks: the messages of the other ones are
delivered, in order, and nothing else. -/
theorem C98_line (p : Parser) (hp : p.buffer = []) (l : List Passed) (hv : ∀ x ∈ l, x.sent.Valid p.skipAlpParsing)
    (hs : ∀ x ∈ l, ∀ g, x.spoiled = some g → Spoiled x.sent.bytes g) (chunks : List (List UInt8)) (hne : chunks ≠ [])
    (h : chunks.flatten = (l.map Passed.bytes).flatten) :
    ∃ q errors, feed p chunks = .ok (q, (l.filter fun x => x.spoiled.isNone).map (fun x => x.sent.delivered), errors) ∧
      q.buffer = [] := by
  obtain ⟨h1, h2, h3⟩ := trace_line l hv hs
  have := feed_trace chunks p hne
  rw [hp, List.nil_append, h, h3, h1, h2] at this
  simp only [Bool.false_eq_true, if_false] at this
  obtain ⟨q, es, k1, k2, -⟩ := this
  exact ⟨q, es, k1, k2⟩

/-- Two log messages; two bits of the first one are flipped. -/
example : Spoiled (frame 1 4 [65, 66]) ((frame 1 4 [65, 66]).set 7 64 |>.set 8 67) ∧
    (feed (Parser.new true) [((frame 1 4 [65, 66]).set 7 64 |>.set 8 67) ++ [0xC0], (frame 2 4 [67]).tail]).map (fun x => x.2.1) =
      .ok [(4, .bytes [67])] := by
  refine ⟨⟨by decide, by decide, by decide, .inl ⟨by decide +kernel, 7, by decide, by decide⟩, by decide +kernel⟩, by decide +kernel⟩

/-- C98, full statement: a frame with flipped bits is never taken for another one. This is false of four bits: in every frame
with at least three bytes of payload there are, at every place, four bits which can be flipped so that the result is the
frame of another payload. -/
theorem C98_four_refuted (counter type : UInt8) (u v : List UInt8) (a b c : UInt8) :
    let sent := frame counter type (u ++ [a, b, c] ++ v)
    let damaged := sent.take (7 + u.length) ++ [a ^^^ 1, b ^^^ 16, c ^^^ 33] ++ v
    flips sent damaged = 4 ∧ damaged = frame counter type (u ++ [a ^^^ 1, b ^^^ 16, c ^^^ 33] ++ v) ∧
      u ++ [a ^^^ 1, b ^^^ 16, c ^^^ 33] ++ v ≠ u ++ [a, b, c] ++ v := by
  intro sent damaged
  have hx : [a ^^^ 1, b ^^^ 16, c ^^^ 33] = List.zipWith (· ^^^ ·) [a, b, c] [1, 16, 33] := rfl
  have hc : Crc.calculateCrc (u ++ [a ^^^ 1, b ^^^ 16, c ^^^ 33] ++ v) = Crc.calculateCrc (u ++ [a, b, c] ++ v) := by
    rw [hx]
    exact Crc.crc_unseen u v [a, b, c] [1, 16, 33] rfl (by decide +kernel)
  have hs : sent = sent.take (7 + u.length) ++ [a, b, c] ++ v := by
    have : sent = (sent.take 7 ++ u) ++ [a, b, c] ++ v := by simp [sent, frame]
    have h2 : sent.take (7 + u.length) = sent.take 7 ++ u := by
      conv_lhs => rw [this, List.append_assoc]
      exact List.take_left' (by simp [sent, frame]; omega)
    rw [h2]; exact this
  have hn : flips [a, b, c] [a ^^^ 1, b ^^^ 16, c ^^^ 33] = 4 := by
    rw [hx]
    unfold flips
    rw [Crc.bytes_xor (x := [a, b, c]) (y := [1, 16, 33]) rfl]
    exact (Crc.diff_xor (by simp)).trans (by decide +kernel)
  have h0 : ∀ l, flips l l = 0 := fun l => Crc.diff_self _
  refine ⟨?_, ?_, ?_⟩
  · conv_lhs => rw [hs]
    show flips _ (sent.take (7 + u.length) ++ [a ^^^ 1, b ^^^ 16, c ^^^ 33] ++ v) = 4
    rw [flips_append (by simp), flips_append rfl, h0, h0, hn]
  · have h2 : sent.take (7 + u.length) = sent.take 7 ++ u := by
      have : sent = (sent.take 7 ++ u) ++ ([a, b, c] ++ v) := by simp [sent, frame]
      conv_lhs => rw [this]
      exact List.take_left' (by simp [sent, frame]; omega)
    show sent.take (7 + u.length) ++ _ ++ v = _
    rw [h2]
    unfold frame
    rw [hc]
    simp [sent, frame]
  · intro h
    have h : [a ^^^ 1, b ^^^ 16, c ^^^ 33] = [a, b, c] := List.append_cancel_left (List.append_cancel_right h)
    rw [h] at hn
    rw [h0] at hn
    cases hn

/-- A log message. -/
example : ((Parser.new false).parse (frame 1 4 [65, 66, 67])).2.map (·.cmds) = .ok [(4, .bytes [65, 66, 67])] ∧
    ((Parser.new false).parse ((frame 1 4 [65, 66, 67]).take 7 ++ [64, 82, 98])).2.map (fun o => (o.cmds, o.errors.length)) =
      .ok ([(4, .bytes [64, 82, 98])], 0) := by decide +kernel

/-- C98 is false of short bursts: 15 bits in a row, at the end of the CRC and the beginning of the payload, are not noticed,
while bursts of up to 16 bits in the payload are (C33). -/
theorem C98_burst_refuted : ∃ g : List UInt8, ∃ before window window' after : List Bool,
    bytesToBits (frame 1 4 [65]) = before ++ window ++ after ∧ bytesToBits g = before ++ window' ++ after ∧
    window.length = 15 ∧ window'.length = 15 ∧ g.take 5 = (frame 1 4 [65]).take 5 ∧
    ((Parser.new false).parse (frame 1 4 [65])).2.map (fun o => (o.cmds, o.errors.length)) = .ok ([(4, .bytes [65])], 0) ∧
    ((Parser.new false).parse g).2.map (fun o => (o.cmds, o.errors.length)) = .ok ([(4, .bytes [0xD9])], 0) := by
  refine ⟨frame 1 4 [0xD9], (bytesToBits (frame 1 4 [65])).take 46, ((bytesToBits (frame 1 4 [65])).drop 46).take 15,
    ((bytesToBits (frame 1 4 [0xD9])).drop 46).take 15, (bytesToBits (frame 1 4 [65])).drop 61, ?_⟩
  decide +kernel

end Verif.Serial
