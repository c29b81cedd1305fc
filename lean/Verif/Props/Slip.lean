import Verif.Spec.Slip
import Verif.Props.Cut

/-! C105: bytes that are lost from serial frames or added to them. -/

namespace Verif.Serial

open Verif

theorem trace_shows {skip : Bool} : ∀ (l : List (Sent × List UInt8)), (∀ x ∈ l, x.1.Valid skip) →
    DamageShows (l.map fun x => (x.1.bytes, x.2)) →
    Ev.msgs (trace skip ((l.map (·.2)).flatten)).evs =
      (l.filter fun x => x.2 = x.1.bytes).map (fun x => x.1.delivered) ∧
    (trace skip ((l.map (·.2)).flatten)).rest = [] ∧ (trace skip ((l.map (·.2)).flatten)).escaped = false := by
  intro l
  induction l with
  | nil => intro _ _; rw [List.map_nil, List.flatten_nil, trace_nil]; exact ⟨rfl, rfl, rfl⟩
  | cons a l ih =>
    intro hv hs
    obtain ⟨hs1, hs2⟩ := hs
    obtain ⟨h1, h2, h3⟩ := ih (fun x hx => hv x (by simp [hx])) hs2
    rw [List.map_cons, List.flatten_cons]
    by_cases hw : a.2 = a.1.bytes
    · obtain ⟨v1, v2⟩ := hv a (by simp)
      rw [hw, List.filter_cons_of_pos (by simpa using hw)]
      show Ev.msgs (trace skip (frame a.1.counter a.1.type a.1.payload ++ _)).evs = _ ∧
        (trace skip (frame a.1.counter a.1.type a.1.payload ++ _)).rest = _ ∧
        (trace skip (frame a.1.counter a.1.type a.1.payload ++ _)).escaped = _
      rw [trace_frame v2 v1]
      refine ⟨?_, h2, h3⟩
      simp only [Ev.msgs, List.map_cons, Sent.delivered]
      rw [h1]
      rfl
    · rcases hs1 with hs1 | hs1
      · exact absurd hs1 hw
      · rw [List.map_map] at hs1
        obtain ⟨k1, k2, k3⟩ := trace_noFrame (skip := skip) _ _ hs1
        rw [List.filter_cons_of_neg (by simpa using hw)]
        rw [show (fun x : List UInt8 × List UInt8 => x.2) ∘ (fun x : Sent × List UInt8 => (x.1.bytes, x.2)) =
          fun x => x.2 from rfl] at k1 k2 k3
        rw [k1, k2, k3]
        exact ⟨h1, h2, h3⟩

/-- C105: whatever a line does to some of the frames of a sequence, in any chunks: if it shows in the bytes, the messages of
the frames that arrive as they were sent are delivered, in order, and nothing else. -/
theorem C105_line_partial (p : Parser) (hp : p.buffer = []) (l : List (Sent × List UInt8))
    (hv : ∀ x ∈ l, x.1.Valid p.skipAlpParsing) (hs : DamageShows (l.map fun x => (x.1.bytes, x.2)))
    (chunks : List (List UInt8)) (hne : chunks ≠ []) (h : chunks.flatten = (l.map (·.2)).flatten) :
    ∃ q errors, feed p chunks = .ok (q, (l.filter fun x => x.2 = x.1.bytes).map (fun x => x.1.delivered), errors) ∧
      q.buffer = [] := by
  obtain ⟨h1, h2, h3⟩ := trace_shows l hv hs
  have := feed_trace chunks p hne
  rw [hp, List.nil_append, h, h3, h1, h2] at this
  simp only [Bool.false_eq_true, if_false] at this
  obtain ⟨q, es, k1, k2, -⟩ := this
  exact ⟨q, es, k1, k2⟩

/-- Three log messages; of the first one the second letter is lost, before the length of the second one there is an additional
byte. -/
example : DamageShows [(frame 1 4 [65, 66, 67], (frame 1 4 [65, 66, 67]).eraseIdx 8),
      (frame 2 4 [68], (frame 2 4 [68]).insertIdx 1 7), (frame 3 4 [69], frame 3 4 [69])] ∧
    (feed (Parser.new true) [(frame 1 4 [65, 66, 67]).eraseIdx 8 ++ [0xC0],
      ((frame 2 4 [68]).insertIdx 1 7).tail ++ frame 3 4 [69]]).map (fun x => x.2.1) = .ok [(4, .bytes [69])] := by
  refine ⟨⟨.inr fun s hs h => ?_, .inr fun s hs h => ?_, .inl rfl, trivial⟩, by decide +kernel⟩
  · rcases List.suffix_cons_iff.1 (show s <:+ 0xC0 :: ((frame 1 4 [65, 66, 67]).eraseIdx 8).tail from h) with rfl | h
    · exact .crc 1 4 3 _ _ [65, 67, 0xC0] _ rfl (by decide +kernel)
    · exact no_sync (by decide +kernel) hs h
  · rcases List.suffix_cons_iff.1 (show s <:+ 0xC0 :: ((frame 2 4 [68]).insertIdx 1 7).tail from h) with rfl | h
    · exact .version 7 _ (by decide)
    · exact no_sync (by decide +kernel) hs h

/-- C105: if one frame of a sequence arrives as bytes that do not begin with a frame and have no sync byte behind the first
byte, all the other messages are delivered and nothing else. -/
theorem C105_one_partial (p : Parser) (hp : p.buffer = []) (before after : List Sent) (f : Sent)
    (hv : ∀ g ∈ before ++ f :: after, g.Valid p.skipAlpParsing) (d : List UInt8) (hd : d ≠ f.bytes) (hc : 0xC0 ∉ d.tail)
    (hn : NoFrame (d ++ (after.map Sent.bytes).flatten)) (chunks : List (List UInt8)) (hne : chunks ≠ [])
    (h : chunks.flatten = (before.map Sent.bytes).flatten ++ d ++ (after.map Sent.bytes).flatten) :
    ∃ q errors, feed p chunks = .ok (q, (before ++ after).map Sent.delivered, errors) ∧ q.buffer = [] := by
  have hwhole : ∀ l : List Sent, DamageShows ((l.map fun g => (g, g.bytes)).map fun x => (x.1.bytes, x.2)) := by
    intro l
    induction l with
    | nil => trivial
    | cons a l ih => exact ⟨.inl rfl, ih⟩
  have hflat : ∀ l : List Sent, (((l.map fun g => (g, g.bytes)).map fun x => (x.1.bytes, x.2)).map (·.2)).flatten =
      (l.map Sent.bytes).flatten := by
    intro l; simp [Function.comp_def]
  have hs : DamageShows (((before.map fun g => (g, g.bytes)) ++ (f, d) :: (after.map fun g => (g, g.bytes))).map
      fun x => (x.1.bytes, x.2)) := by
    clear hv h
    induction before with
    | nil =>
      refine ⟨.inr fun s hs hx => ?_, hwhole after⟩
      rw [hflat]
      cases d with
      | nil => exact absurd (List.suffix_nil.1 hx) hs
      | cons y ys =>
        rcases List.suffix_cons_iff.1 hx with rfl | hx
        · exact hn
        · exact no_sync hc hs hx
    | cons a l ih => exact ⟨.inl rfl, ih⟩
  obtain ⟨q, es, k1, k2⟩ := C105_line_partial p hp _ (by
    intro x hx
    simp only [List.mem_append, List.mem_map, List.mem_cons] at hx hv
    rcases hx with ⟨g, hg, rfl⟩ | rfl | ⟨g, hg, rfl⟩
    · exact hv g (.inl hg)
    · exact hv f (.inr (.inl rfl))
    · exact hv g (.inr (.inr hg))) hs chunks hne (by rw [h]; simp [Function.comp_def])
  refine ⟨q, es, ?_, k2⟩
  rw [k1]
  have e : ∀ l : List Sent, (l.map fun g => (g, g.bytes)).filter (fun x => decide (x.2 = x.1.bytes)) =
      l.map fun g => (g, g.bytes) := by
    intro l
    rw [List.filter_eq_self]
    simp
  rw [List.filter_append, List.filter_cons_of_neg (by simpa using hd), e, e]
  simp [Function.comp_def]

/-- A frame of which two bytes have become one. -/
example : NoFrame ([0xC0, 0, 1, 4, 2, 7] ++ [65, 66] ++ (frame 2 4 [67])) ∧ 0xC0 ∉ ([0, 1, 4, 2, 7, 65, 66] : List UInt8) ∧
    (feed (Parser.new true) [frame 0 4 [64] ++ [0xC0, 0, 1, 4, 2, 7, 65, 66], frame 2 4 [67]]).map
      (fun x => x.2.1) = .ok [(4, .bytes [64]), (4, .bytes [67])] :=
  ⟨.crc 1 4 2 7 65 [66, 0xC0] (frame 2 4 [67]).tail rfl (by decide +kernel), by decide, by decide +kernel⟩

theorem frame_cons (f : Sent) : f.bytes = 0xC0 :: 0 :: f.counter :: f.type :: UInt8.ofNat f.payload.length ::
    (Crc.calculateCrc f.payload).1 :: (Crc.calculateCrc f.payload).2 :: f.payload := rfl

/-- A header with the length and the CRC of `p` before other bytes. -/
theorem other_payload (counter type : UInt8) (p q x : List UInt8) (hp : p.length ≤ 255) (hl : q.length = p.length)
    (hc : Crc.calculateCrc q ≠ Crc.calculateCrc p) : NoFrame (corrupted counter type p q ++ x) :=
  .crc counter type (UInt8.ofNat p.length) _ _ q x (by rw [hl, UInt8.toNat_ofNat']; omega) hc

/-- Payloads that differ in their last two bytes only. -/
theorem crc_last_two (p : List UInt8) (a b c d : UInt8) (h : Crc.calculateCrc (p ++ [a, b]) = Crc.calculateCrc (p ++ [c, d])) :
    a = c ∧ b = d := by
  by_contra hn
  refine C33_burst _ _ ⟨bytesToBits p, bytesToBits [a, b], bytesToBits [c, d], [], ?_, ?_, ?_, ?_, ?_⟩ h
  · simp only [bytesToBits_append, List.append_nil]
  · simp only [bytesToBits_append, List.append_nil]
  · simp
  · simp
  · intro e
    have := bytesToBits_inj e
    simp only [List.cons.injEq, and_true] at this
    exact hn this

theorem crc_last (p : List UInt8) (a b : UInt8) (h : Crc.calculateCrc (p ++ [a]) = Crc.calculateCrc (p ++ [b])) : a = b := by
  by_contra hn
  refine C33_burst _ _ ⟨bytesToBits p, bytesToBits [a], bytesToBits [b], [], ?_, ?_, ?_, ?_, ?_⟩ h
  · simp only [bytesToBits_append, List.append_nil]
  · simp only [bytesToBits_append, List.append_nil]
  · simp
  · simp
  · intro e
    have := bytesToBits_inj e
    simp only [List.cons.injEq, and_true] at this
    exact hn this

/-- C105, the end of a payload: if the last byte or the last but one is lost and another byte follows, the CRC fits only if
the payload is the same after all. -/
theorem C105_lost_end (payload : List UInt8) (j : Nat) (hj : j < payload.length) (h2 : payload.length ≤ j + 2) (next : UInt8)
    (hc : Crc.calculateCrc (payload.eraseIdx j ++ [next]) = Crc.calculateCrc payload) :
    payload.eraseIdx j ++ [next] = payload := by
  rcases (by omega : payload.length = j + 1 ∨ payload.length = j + 2) with hl | hl
  · obtain ⟨p, a, rfl⟩ : ∃ p a, payload = p ++ [a] := by
      rcases List.eq_nil_or_concat payload with rfl | ⟨p, a, rfl⟩
      · simp at hj
      · exact ⟨p, a, List.concat_eq_append⟩
    have : j = p.length := by simp at hl; omega
    subst this
    simp only [List.eraseIdx_append_of_length_le (Nat.le_refl _), Nat.sub_self, List.eraseIdx_cons_zero, List.append_nil] at hc ⊢
    rw [crc_last _ _ _ hc]
  · obtain ⟨p, a, b, rfl⟩ : ∃ p a b, payload = p ++ [a, b] := by
      rcases List.eq_nil_or_concat payload with rfl | ⟨q, b, rfl⟩
      · simp at hj
      · rcases List.eq_nil_or_concat q with rfl | ⟨p, a, rfl⟩
        · simp at hl
        · exact ⟨p, a, b, by simp [List.concat_eq_append]⟩
    have : j = p.length := by simp at hl; omega
    subst this
    simp only [List.eraseIdx_append_of_length_le (Nat.le_refl _), Nat.sub_self, List.eraseIdx_cons_zero, List.append_assoc,
      List.cons_append, List.nil_append] at hc ⊢
    obtain ⟨rfl, rfl⟩ := crc_last_two _ _ _ _ _ hc
    rfl

/-- A payload that ends with two equal bytes, and one that does not. -/
example : [1, 0xC0, 0xC0].eraseIdx 1 ++ [(0xC0 : UInt8)] = [1, 0xC0, 0xC0] ∧
    Crc.calculateCrc ([1, 2, 0xC0].eraseIdx 1 ++ [0xC0]) ≠ Crc.calculateCrc [1, 2, 0xC0] := by decide +kernel

/-- Frames that follow begin with the sync byte. -/
theorem sync_follows {after : List Sent} (h : after ≠ []) :
    ∃ x, (after.map Sent.bytes).flatten = 0xC0 :: x := by
  obtain ⟨g, l, rfl⟩ := List.exists_cons_of_ne_nil h
  exact ⟨_, rfl⟩

theorem not_mem_eraseIdx {a : UInt8} {l : List UInt8} (h : a ∉ l) (i : Nat) : a ∉ l.eraseIdx i :=
  fun hm => h (List.mem_of_mem_eraseIdx hm)

/-- C105: one frame of a sequence loses one byte: the first one, the second one (of a frame whose number is not 0), or one of
the payload with another frame behind it. If the frame has no sync byte behind the first byte and the CRC does not happen to
fit — it never does if the byte was one of the last two —, all other messages are delivered and nothing else. -/
theorem C105_lost_partial (p : Parser) (hp : p.buffer = []) (before after : List Sent) (f : Sent)
    (hv : ∀ g ∈ before ++ f :: after, g.Valid p.skipAlpParsing) (hc : 0xC0 ∉ f.bytes.tail) (i : Nat) (hi : i < f.bytes.length)
    (hn : i = 0 ∨ i = 1 ∧ f.counter ≠ 0 ∨ 7 ≤ i ∧ after ≠ [] ∧ (f.bytes.length ≤ i + 2 ∨
      Crc.calculateCrc (f.payload.eraseIdx (i - 7) ++ [0xC0]) ≠ Crc.calculateCrc f.payload))
    (chunks : List (List UInt8)) (hne : chunks ≠ [])
    (h : chunks.flatten = (before.map Sent.bytes).flatten ++ f.bytes.eraseIdx i ++ (after.map Sent.bytes).flatten) :
    ∃ q errors, feed p chunks = .ok (q, (before ++ after).map Sent.delivered, errors) ∧ q.buffer = [] := by
  have hd : f.bytes.eraseIdx i ≠ f.bytes := by
    intro e
    have := congrArg List.length e
    rw [List.length_eraseIdx_of_lt hi] at this
    omega
  have hlen : f.payload.length ≤ 255 := (hv f (by simp)).1
  rcases hn with rfl | ⟨rfl, h0⟩ | ⟨h7, ha, hn⟩
  · refine C105_one_partial p hp before after f hv _ hd ?_ ?_ chunks hne h
    · exact fun hm => hc (List.mem_of_mem_tail hm)
    · exact .sync 0 _ (by decide)
  · refine C105_one_partial p hp before after f hv _ hd ?_ ?_ chunks hne h
    · exact fun hm => hc (List.mem_of_mem_tail hm)
    · exact .version f.counter _ h0
  · obtain ⟨j, rfl⟩ : ∃ j, i = j + 7 := ⟨i - 7, by omega⟩
    have hj : j < f.payload.length := by simp [frame_cons] at hi; omega
    have he : f.bytes.eraseIdx (j + 7) = corrupted f.counter f.type f.payload (f.payload.eraseIdx j) := by
      simp [frame_cons, corrupted]
    obtain ⟨x, hx⟩ := sync_follows ha
    refine C105_one_partial p hp before after f hv _ hd ?_ ?_ chunks hne h
    · intro hm
      apply hc
      rw [frame_cons, List.eraseIdx_cons_succ] at hm
      exact List.mem_of_mem_eraseIdx hm
    · rw [hx, he, show corrupted f.counter f.type f.payload (f.payload.eraseIdx j) ++ 0xC0 :: x =
        corrupted f.counter f.type f.payload (f.payload.eraseIdx j ++ [0xC0]) ++ x by simp [corrupted]]
      refine other_payload _ _ _ _ _ hlen (by simp [List.length_eraseIdx_of_lt hj]; omega) ?_
      rw [Nat.add_sub_cancel] at hn
      rcases hn with hn | hn
      · intro e
        have := C105_lost_end f.payload j hj (by simp [frame_cons] at hn; omega) _ e
        apply hc
        rw [frame_cons]
        have : 0xC0 ∈ f.payload := by rw [← this]; simp
        simp [this]
      · exact hn

/-- The second of three log messages loses its first, its second or one of its last two bytes. -/
example : 0xC0 ∉ (frame 2 4 [66, 67, 68]).tail ∧
    [0, 1, 8, 9].map (fun i => (feed (Parser.new true) [frame 1 4 [65], (frame 2 4 [66, 67, 68]).eraseIdx i ++ frame 3 4 [69]]).map
      (fun x => x.2.1)) = List.replicate 4 (.ok [(4, .bytes [65]), (4, .bytes [69])]) := by decide +kernel

/-- C105, full statement: a lost byte costs no more than the message of its frame, and never leads to another message. This is
false if the CRC happens to fit: then another text is delivered, and the message behind it is lost as well. -/
theorem C105_taken_refuted (p : Parser) (hp : p.buffer = []) (before after : List Sent) (counter : UInt8) (text : List UInt8)
    (g : Sent) (hv : ∀ x ∈ before ++ ⟨counter, 4, text, .bytes text⟩ :: g :: after, x.Valid p.skipAlpParsing)
    (hg : 0xC0 ∉ g.bytes.tail) (j : Nat) (hj : j < text.length)
    (hc : Crc.calculateCrc (text.eraseIdx j ++ [0xC0]) = Crc.calculateCrc text)
    (chunks : List (List UInt8)) (hne : chunks ≠ [])
    (h : chunks.flatten = (before.map Sent.bytes).flatten ++ (frame counter 4 text).eraseIdx (j + 7) ++
      ((g :: after).map Sent.bytes).flatten) :
    ∃ q errors, feed p chunks =
      .ok (q, before.map Sent.delivered ++ (4, .bytes (text.eraseIdx j ++ [0xC0])) :: after.map Sent.delivered, errors) ∧
        q.buffer = [] := by
  have hl : text.length ≤ 255 := (hv ⟨counter, 4, text, .bytes text⟩ (by simp)).1
  have hlen : (text.eraseIdx j ++ [0xC0]).length = text.length := by
    simp [List.length_eraseIdx_of_lt hj]; omega
  have hline : chunks.flatten = ((((before ++ [⟨counter, 4, text.eraseIdx j ++ [0xC0], .bytes (text.eraseIdx j ++ [0xC0])⟩] :
      List Sent).map fun x => (x, x.bytes)) ++ (g, g.bytes.tail) :: (after.map fun x => (x, x.bytes))).map (·.2)).flatten := by
    rw [h]
    simp only [List.map_append, List.map_map, List.flatten_append, List.map_cons, List.flatten_cons, Function.comp_def,
      List.map_nil, List.flatten_nil, List.append_nil, List.append_assoc]
    congr 1
    have : (frame counter 4 text).eraseIdx (j + 7) ++ [0xC0] =
        Sent.bytes ⟨counter, 4, text.eraseIdx j ++ [0xC0], .bytes (text.eraseIdx j ++ [0xC0])⟩ := by
      rw [frame_cons]
      simp only [hlen, hc]
      simp [frame]
    rw [← this, List.append_assoc]
    rfl
  obtain ⟨q, es, k1, k2⟩ := C105_one_partial p hp
    (before ++ [⟨counter, 4, text.eraseIdx j ++ [0xC0], .bytes (text.eraseIdx j ++ [0xC0])⟩]) after g (by
      intro x hx
      simp only [List.mem_append, List.mem_cons, List.not_mem_nil, or_false] at hx hv
      rcases hx with (hx | rfl) | rfl | hx
      · exact hv x (.inl hx)
      · exact ⟨by rw [hlen]; exact hl, .logging _⟩
      · exact hv x (.inr (.inr (.inl rfl)))
      · exact hv x (.inr (.inr (.inr hx)))) g.bytes.tail (by
      intro e
      have := congrArg List.length e
      rw [frame_cons] at this
      simp at this) (fun hm => hg (List.mem_of_mem_tail hm)) (.sync 0 _ (by decide)) chunks hne (by
      rw [hline]
      simp [Function.comp_def])
  refine ⟨q, es, ?_, k2⟩
  rw [k1]
  simp [Sent.delivered]

/-- The fifth byte of a text is lost; of the three messages two are delivered, one of them wrong. -/
example : Crc.calculateCrc ([4, 65, 0, 4, 3, 166, 3, 4].eraseIdx 4 ++ [0xC0]) = Crc.calculateCrc [4, 65, 0, 4, 3, 166, 3, 4] ∧
    (feed (Parser.new true) [(frame 1 4 [4, 65, 0, 4, 3, 166, 3, 4]).eraseIdx 11 ++ frame 2 4 [66] ++ frame 3 4 [67]]).map
      (fun x => x.2.1) = .ok [(4, .bytes [4, 65, 0, 4, 166, 3, 4, 0xC0]), (4, .bytes [67])] := by decide +kernel

/-- C105, full statement: a lost byte never leads to another message than those sent. This is false of commands: a command that
writes four bytes to a file; if the first of them is lost, a command is delivered that writes others. An additional byte can do
the same. -/
theorem C105_command_refuted : ∃ (payload payload' : List UInt8) (c d c' d' : Command),
    ((Parser.new false).parse (frame 1 1 payload)).2.map (fun o => (o.cmds, o.errors.length)) = .ok ([(1, .command c)], 0) ∧
    ((Parser.new false).parse ((frame 1 1 payload).eraseIdx 11 ++ [0xC0])).2.map (fun o => (o.cmds, o.errors.length)) =
      .ok ([(1, .command d)], 0) ∧
    c.actions = [.regular false false (.writeFileData ⟨⟨0x41, ⟨0⟩⟩, ⟨4⟩, [3, 166, 3, 4]⟩)] ∧
    d.actions = [.regular false false (.writeFileData ⟨⟨0x41, ⟨0⟩⟩, ⟨4⟩, [166, 3, 4, 0xC0]⟩)] ∧
    ((Parser.new false).parse (frame 1 1 payload')).2.map (fun o => (o.cmds, o.errors.length)) = .ok ([(1, .command c')], 0) ∧
    ((Parser.new false).parse ((frame 1 1 payload').insertIdx 11 1)).2.map (fun o => o.cmds) = .ok [(1, .command d')] ∧
    c'.actions = [.regular false false (.writeFileData ⟨⟨0x41, ⟨0⟩⟩, ⟨4⟩, [16, 18, 2, 2]⟩)] ∧
    d'.actions = [.regular false false (.writeFileData ⟨⟨0x41, ⟨0⟩⟩, ⟨4⟩, [1, 16, 18, 2]⟩)] := by
  refine ⟨[4, 65, 0, 4, 3, 166, 3, 4], [4, 65, 0, 4, 16, 18, 2, 2],
    ⟨[.regular false false (.writeFileData ⟨⟨0x41, ⟨0⟩⟩, ⟨4⟩, [3, 166, 3, 4]⟩)], none, false, none, true, false, none⟩,
    ⟨[.regular false false (.writeFileData ⟨⟨0x41, ⟨0⟩⟩, ⟨4⟩, [166, 3, 4, 0xC0]⟩)], none, false, none, true, false, none⟩,
    ⟨[.regular false false (.writeFileData ⟨⟨0x41, ⟨0⟩⟩, ⟨4⟩, [16, 18, 2, 2]⟩)], none, false, none, true, false, none⟩,
    ⟨[.regular false false (.writeFileData ⟨⟨0x41, ⟨0⟩⟩, ⟨4⟩, [1, 16, 18, 2]⟩)], none, false, none, true, false, none⟩, ?_⟩
  decide +kernel

/-- C105: an additional byte between two frames, before the first one or (if it is not a sync byte) after the last one does no
harm: every message is delivered. -/
theorem C105_between (p : Parser) (hp : p.buffer = []) (before after : List Sent)
    (hv : ∀ g ∈ before ++ after, g.Valid p.skipAlpParsing) (z : UInt8) (hz : z ≠ 0xC0 ∨ after ≠ [])
    (chunks : List (List UInt8)) (hne : chunks ≠ [])
    (h : chunks.flatten = (before.map Sent.bytes).flatten ++ [z] ++ (after.map Sent.bytes).flatten) :
    ∃ q errors, feed p chunks = .ok (q, (before ++ after).map Sent.delivered, errors) ∧ q.buffer = [] := by
  have hno : ∀ s, s ≠ [] → s <:+ [z] → NoFrame (s ++ (after.map Sent.bytes).flatten) := by
    intro s hs hx
    rcases List.suffix_cons_iff.1 hx with rfl | hx
    · by_cases hz0 : z = 0xC0
      · subst hz0
        obtain ⟨x, hx⟩ := sync_follows (hz.resolve_left (by simp))
        rw [hx]
        exact .version 0xC0 x (by decide)
      · exact .sync z _ hz0
    · exact absurd (List.suffix_nil.1 hx) hs
  have key : ∀ l : List Sent, (∀ g ∈ l ++ after, g.Valid p.skipAlpParsing) →
      Ev.msgs (trace p.skipAlpParsing ((l.map Sent.bytes).flatten ++ ([z] ++ (after.map Sent.bytes).flatten))).evs =
        (l ++ after).map Sent.delivered ∧
      (trace p.skipAlpParsing ((l.map Sent.bytes).flatten ++ ([z] ++ (after.map Sent.bytes).flatten))).rest = [] ∧
      (trace p.skipAlpParsing ((l.map Sent.bytes).flatten ++ ([z] ++ (after.map Sent.bytes).flatten))).escaped = false := by
    intro l
    induction l with
    | nil =>
      intro hl
      obtain ⟨k1, k2, k3⟩ := trace_noFrame (skip := p.skipAlpParsing) _ _ hno
      obtain ⟨h1, h2, h3⟩ := trace_whole (skip := p.skipAlpParsing) after (by simpa using hl)
      rw [List.map_nil, List.flatten_nil, List.nil_append, k1, k2, k3, h1, h2, h3]
      exact ⟨rfl, rfl, rfl⟩
    | cons a l ih =>
      intro hl
      obtain ⟨h1, h2, h3⟩ := ih (fun x hx => hl x (by simp at hx ⊢; tauto))
      obtain ⟨v1, v2⟩ := hl a (by simp)
      rw [List.map_cons, List.flatten_cons, Sent.bytes, List.append_assoc, trace_frame v2 v1]
      refine ⟨?_, h2, h3⟩
      simp only [Ev.msgs]
      rw [h1]
      rfl
  obtain ⟨h1, h2, h3⟩ := key before hv
  have hft := feed_trace chunks p hne
  rw [hp, List.nil_append, h, List.append_assoc, h1, h2, h3] at hft
  simp only [Bool.false_eq_true, if_false] at hft
  obtain ⟨q, es, j1, j2, -⟩ := hft
  exact ⟨q, es, j1, j2⟩

/-- An additional sync byte before the second frame. -/
example : (feed (Parser.new true) [frame 1 4 [65] ++ [0xC0], frame 2 4 [66]]).map (fun x => x.2.1) =
    .ok [(4, .bytes [65]), (4, .bytes [66])] := by decide +kernel

/-- C105: one frame of a sequence gets an additional byte behind the first byte or inside of the payload. If neither it nor
the bytes of the frame behind the first one are sync bytes and the CRC does not happen to fit, all other messages are delivered
and nothing else. -/
theorem C105_added_partial (p : Parser) (hp : p.buffer = []) (before after : List Sent) (f : Sent)
    (hv : ∀ g ∈ before ++ f :: after, g.Valid p.skipAlpParsing) (hc : 0xC0 ∉ f.bytes.tail) (z : UInt8) (hz : z ≠ 0xC0)
    (i : Nat) (hi : i < f.bytes.length)
    (hn : i = 1 ∧ z ≠ 0 ∨ 7 ≤ i ∧
      Crc.calculateCrc ((f.payload.insertIdx (i - 7) z).take f.payload.length) ≠ Crc.calculateCrc f.payload)
    (chunks : List (List UInt8)) (hne : chunks ≠ [])
    (h : chunks.flatten = (before.map Sent.bytes).flatten ++ f.bytes.insertIdx i z ++ (after.map Sent.bytes).flatten) :
    ∃ q errors, feed p chunks = .ok (q, (before ++ after).map Sent.delivered, errors) ∧ q.buffer = [] := by
  have hd : f.bytes.insertIdx i z ≠ f.bytes := by
    intro e
    have := congrArg List.length e
    rw [List.length_insertIdx_of_le_length (by omega)] at this
    omega
  have hlen : f.payload.length ≤ 255 := (hv f (by simp)).1
  have htail : 0xC0 ∉ (f.bytes.insertIdx i z).tail := by
    obtain ⟨k, rfl⟩ : ∃ k, i = k + 1 := ⟨i - 1, by omega⟩
    rw [frame_cons, List.insertIdx_succ_cons, List.tail_cons]
    rw [frame_cons, List.tail_cons] at hc
    intro hm
    rw [List.mem_insertIdx (by rw [frame_cons] at hi; simp at hi ⊢; omega)] at hm
    rcases hm with hm | hm
    · exact hz hm.symm
    · exact hc hm
  refine C105_one_partial p hp before after f hv _ hd htail ?_ chunks hne h
  rcases hn with ⟨rfl, h0⟩ | ⟨h7, hn⟩
  · exact .version z _ h0
  · obtain ⟨j, rfl⟩ : ∃ j, i = j + 7 := ⟨i - 7, by omega⟩
    have hj : j < f.payload.length := by simp [frame_cons] at hi; omega
    rw [Nat.add_sub_cancel] at hn
    have he : f.bytes.insertIdx (j + 7) z = corrupted f.counter f.type f.payload (f.payload.insertIdx j z) := by
      simp [frame_cons, corrupted]
    rw [he, show corrupted f.counter f.type f.payload (f.payload.insertIdx j z) =
      corrupted f.counter f.type f.payload ((f.payload.insertIdx j z).take f.payload.length) ++
        (f.payload.insertIdx j z).drop f.payload.length by simp [corrupted], List.append_assoc]
    exact other_payload _ _ _ _ _ hlen (by rw [List.length_take, List.length_insertIdx_of_le_length (by omega)]; omega) hn

/-- An additional byte before each of the letters of the second message. -/
example : 0xC0 ∉ (frame 2 4 [66, 67, 68]).tail ∧
    [1, 7, 8, 9].map (fun i => (feed (Parser.new true) [frame 1 4 [65], (frame 2 4 [66, 67, 68]).insertIdx i 1 ++ frame 3 4 [69]]).map
      (fun x => x.2.1)) = List.replicate 4 (.ok [(4, .bytes [65]), (4, .bytes [69])]) := by decide +kernel

theorem insertIdx_end (z : UInt8) (q : List UInt8) : ∀ p : List UInt8, (p ++ q).insertIdx p.length z = p ++ z :: q
  | [] => by simp
  | a :: p => by simp [insertIdx_end z q p]

/-- C105, the end of a payload: if a byte is added before the last byte or before the last but one, the CRC fits only if the
payload is the same after all. -/
theorem C105_added_end (payload : List UInt8) (j : Nat) (hj : j < payload.length) (h2 : payload.length ≤ j + 2) (z : UInt8)
    (hc : Crc.calculateCrc ((payload.insertIdx j z).take payload.length) = Crc.calculateCrc payload) :
    (payload.insertIdx j z).take payload.length = payload := by
  rcases (by omega : payload.length = j + 1 ∨ payload.length = j + 2) with hl | hl
  · obtain ⟨p, a, rfl⟩ : ∃ p a, payload = p ++ [a] := by
      rcases List.eq_nil_or_concat payload with rfl | ⟨p, a, rfl⟩
      · simp at hj
      · exact ⟨p, a, List.concat_eq_append⟩
    have : j = p.length := by simp at hl; omega
    subst this
    have e : ((p ++ [a]).insertIdx p.length z).take (p ++ [a]).length = p ++ [z] := by
      rw [insertIdx_end]
      simp [List.take_append, List.take_of_length_le]
    rw [e] at hc ⊢
    rw [crc_last _ _ _ hc]
  · obtain ⟨p, a, b, rfl⟩ : ∃ p a b, payload = p ++ [a, b] := by
      rcases List.eq_nil_or_concat payload with rfl | ⟨q, b, rfl⟩
      · simp at hj
      · rcases List.eq_nil_or_concat q with rfl | ⟨p, a, rfl⟩
        · simp at hl
        · exact ⟨p, a, b, by simp [List.concat_eq_append]⟩
    have : j = p.length := by simp at hl; omega
    subst this
    have e : ((p ++ [a, b]).insertIdx p.length z).take (p ++ [a, b]).length = p ++ [z, a] := by
      rw [insertIdx_end]
      simp [List.take_append, List.take_of_length_le]
    rw [e] at hc ⊢
    obtain ⟨rfl, rfl⟩ := crc_last_two _ _ _ _ _ hc
    rfl

/-- A payload that ends with two equal bytes before which the same byte is added, and another byte. -/
example : ([1, 5, 5].insertIdx 1 5).take 3 = [1, 5, (5 : UInt8)] ∧
    Crc.calculateCrc (([1, 5, 5].insertIdx 1 6).take 3) ≠ Crc.calculateCrc [1, 5, 5] := by decide +kernel

/-- C105: a byte of the payload that is doubled, with equal bytes behind it up to the end, costs nothing: the message of the
frame is delivered as well. -/
theorem C105_same (p : Parser) (hp : p.buffer = []) (before after : List Sent) (f : Sent)
    (hv : ∀ g ∈ before ++ f :: after, g.Valid p.skipAlpParsing) (z : UInt8) (j : Nat) (hj : j ≤ f.payload.length)
    (hs : ∀ k (_ : j ≤ k) (hk : k < f.payload.length), f.payload[k] = z) (hz : z ≠ 0xC0 ∨ after ≠ [])
    (chunks : List (List UInt8)) (hne : chunks ≠ [])
    (h : chunks.flatten = (before.map Sent.bytes).flatten ++ f.bytes.insertIdx (j + 7) z ++ (after.map Sent.bytes).flatten) :
    ∃ q errors, feed p chunks = .ok (q, (before ++ f :: after).map Sent.delivered, errors) ∧ q.buffer = [] := by
  have e : f.bytes.insertIdx (j + 7) z = f.bytes ++ [z] := by
    have : f.payload.insertIdx j z = f.payload ++ [z] := by
      apply List.ext_getElem (by simp [List.length_insertIdx_of_le_length hj])
      intro n h1 h2
      rw [List.getElem_insertIdx]
      rw [List.length_insertIdx_of_le_length hj] at h1
      split
      · rw [List.getElem_append_left (by omega)]
      · split
        · next h3 =>
          subst h3
          by_cases h4 : n < f.payload.length
          · rw [List.getElem_append_left h4, hs n (Nat.le_refl _) h4]
          · rw [List.getElem_append_right (by omega)]; simp
        · next h3 h4 =>
          rw [hs (n - 1) (by omega) (by omega)]
          by_cases h5 : n < f.payload.length
          · rw [List.getElem_append_left h5, hs n (by omega) h5]
          · rw [List.getElem_append_right (by omega)]; simp
    rw [frame_cons]
    simp [this]
  obtain ⟨q, es, k1, k2⟩ := C105_between p hp (before ++ [f]) after (by simpa using hv) z hz chunks hne (by
    rw [h, e]; simp)
  exact ⟨q, es, by rw [k1]; simp, k2⟩

/-- One more zero at the end of a payload that ends with zeros. -/
example : (feed (Parser.new true) [(frame 1 4 [65, 0, 0]).insertIdx 8 0, frame 2 4 [66]]).map (fun x => x.2.1) =
    .ok [(4, .bytes [65, 0, 0]), (4, .bytes [66])] := by decide +kernel

/-- C105: as long as nothing follows a frame that has lost a byte of its payload, nothing is delivered or reported. -/
theorem C105_waits (r : Parser) (hr : r.buffer = []) (counter type : UInt8) (payload : List UInt8) (hl : payload.length ≤ 255)
    (j : Nat) (hj : j < payload.length) :
    ∃ q o, r.parse ((frame counter type payload).eraseIdx (j + 7)) = (q, .ok o) ∧ o.cmds = [] ∧ o.errors = [] ∧
      q.buffer = (frame counter type payload).eraseIdx (j + 7) := by
  have hd : (frame counter type payload).eraseIdx (j + 7) = 0xC0 :: 0 :: counter :: type :: UInt8.ofNat payload.length ::
      (Crc.calculateCrc payload).1 :: (Crc.calculateCrc payload).2 :: payload.eraseIdx j := by simp [frame]
  have hv : view ((frame counter type payload).eraseIdx (j + 7)) = .short := by
    rw [hd]
    simp only [view, UInt8.toNat_ofNat']
    rw [if_neg (by decide), if_neg (by decide), if_pos]
    rw [List.length_eraseIdx_of_lt hj]
    omega
  have ht := trace_need (skip := r.skipAlpParsing) (b := (frame counter type payload).eraseIdx (j + 7)) (by rw [hd]; simp)
    (by rw [front, hv])
  rw [parse_trace, hr, List.nil_append, ht]
  exact ⟨_, _, rfl, rfl, rfl, rfl⟩

/-- A letter is lost. -/
example : ((Parser.new true).parse ((frame 1 4 [65, 66]).eraseIdx 7)).2.map (fun o => (o.cmds, o.errors.length)) =
    .ok ([], 0) := by decide +kernel

end Verif.Serial
