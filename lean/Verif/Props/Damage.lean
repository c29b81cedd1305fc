import Verif.Props.Loss
import Verif.Props.Crc
import Verif.Props.SerialFrames

/-! C97: what a single damaged byte does to a serial frame. -/

namespace Verif.Serial

open Verif

/-- A buffer that is refused. -/
theorem refused {r r' : Parser} (hb : r.buffer = []) {b : List UInt8} {pos : Nat} (hne : b ≠ [])
    (hf : front r.skipAlpParsing b = .bad .parseError pos) {o : Output} (ho : r.parse b = (r', .ok o)) :
    (∃ skipped, o.errors.head? = some ⟨.parseError, b, pos, skipped⟩) ∧
      Deliveries r.skipAlpParsing b.tail o.cmds r'.buffer := by
  have ht := trace_bad hne hf
  rw [parse_trace, hb, List.nil_append, ht, finish] at ho
  injection ho with h1 h2
  split at h2
  · cases h2
  · injection h2 with h2
    subst h1
    subst h2
    refine ⟨⟨_, rfl⟩, ?_⟩
    have hd := trace_deliveries r.skipAlpParsing _ (skipBadBufferContent b).1 rfl
    obtain ⟨y, ys, rfl⟩ := List.exists_cons_of_ne_nil hne
    rw [(skip_cons _ _).1] at hd ⊢
    obtain ⟨g, hg⟩ := fromSync_suffix ys
    have := hd.gap g
    rw [← hg] at this
    exact this

/-- A buffer that is refused, without a place where another frame could begin before `x`. -/
theorem refused_skipped {r : Parser} (hb : r.buffer = []) {b x : List UInt8} {pos : Nat} (hne : b ≠ [])
    (hf : front r.skipAlpParsing (b ++ x) = .bad .parseError pos) (hc : 0xC0 ∉ b.tail) :
    match r.parse x with
    | (s, .ok o) => ∃ s' o', r.parse (b ++ x) = (s', .ok o') ∧ o'.cmds = o.cmds ∧ s'.buffer = s.buffer
    | (_, .error e) => ∃ s', r.parse (b ++ x) = (s', .error e) := by
  obtain ⟨y, ys, rfl⟩ := List.exists_cons_of_ne_nil hne
  have ht := trace_bad (by simp) hf
  have he : (skipBadBufferContent (y :: ys ++ x)).1 = fromSync x := by
    have hc : 0xC0 ∉ ys := hc
    rw [List.cons_append, (skip_cons _ _).1, fromSync_append, if_pos (fromSync_none hc)]
  rw [he] at ht
  obtain ⟨h1, h2, h3, h4⟩ := trace_fromSync r.skipAlpParsing x
  rw [parse_trace, parse_trace, hb, List.nil_append, List.nil_append, ht]
  simp only [finish, h4]
  split
  · next s o heq =>
    injection heq with e1 e2
    split at e2
    · cases e2
    · next hn =>
      injection e2 with e2
      subst e1 e2
      refine ⟨_, _, by rw [if_neg hn], ?_, ?_⟩
      · simp [Ev.msgs, h1]
      · simp [h3]
  · next s e heq =>
    injection heq with e1 e2
    split at e2
    · next hn =>
      injection e2 with e2
      subst e2
      exact ⟨_, by rw [if_pos hn]⟩
    · cases e2

/-- A payload with one damaged byte. -/
theorem burst_set (p : List UInt8) (i : Nat) (hi : i < p.length) (b : UInt8) (hb : b ≠ p[i]) : Burst p (p.set i b) := by
  have h1 : p = p.take i ++ [p[i]] ++ p.drop (i + 1) := by simp
  have h2 : p.set i b = p.take i ++ [b] ++ p.drop (i + 1) := by
    rw [List.set_eq_take_append_cons_drop, if_pos hi]; simp
  refine ⟨bytesToBits (p.take i), bytesToBits [p[i]], bytesToBits [b], bytesToBits (p.drop (i + 1)), ?_, ?_, by simp,
    by simp, fun h => hb ?_⟩
  · conv_lhs => rw [h1]
    simp only [bytesToBits_append]
  · rw [h2]
    simp only [bytesToBits_append]
  · have := bytesToBits_inj h
    simpa using this.symm

/-- The header check refuses a frame with a damaged byte in the sync bytes, in the CRC or in the payload. -/
theorem front_damaged (skip : Bool) (counter type : UInt8) (payload x : List UInt8) (hl : payload.length ≤ 255)
    (i : Nat) (hi : i < (frame counter type payload).length) (h2 : i ≠ 2) (h3 : i ≠ 3) (h4 : i ≠ 4) (b : UInt8)
    (hb : b ≠ (frame counter type payload)[i]) :
    ∃ pos, front skip ((frame counter type payload).set i b ++ x) = .bad .parseError pos := by
  have hn : (UInt8.ofNat payload.length).toNat = payload.length := by rw [UInt8.toNat_ofNat']; omega
  match i, hi, h2, h3, h4, hb with
  | 0, _, _, _, _, hb => exact ⟨8, front_nosync skip _ (by simpa [frame] using hb)⟩
  | 1, _, _, _, _, hb =>
    refine ⟨16, ?_⟩
    have : b ≠ 0 := by simpa [frame] using hb
    rw [front, show view ((frame counter type payload).set 1 b ++ x) = .nosync 16 by simp [frame, view, this]]
  | 2, _, h, _, _, _ => exact absurd rfl h
  | 3, _, _, h, _, _ => exact absurd rfl h
  | 4, _, _, _, h, _ => exact absurd rfl h
  | 5, _, _, _, _, hb =>
    refine ⟨56, ?_⟩
    have hb : b ≠ (Crc.calculateCrc payload).1 := by simpa [frame] using hb
    rw [front, show view ((frame counter type payload).set 5 b ++ x) = .crcBad counter by
      simp only [frame, view, List.cons_append, List.nil_append, List.set_cons_succ, List.set_cons_zero, hn]
      rw [if_neg (by decide), if_neg (by decide), if_neg (by simp), List.take_left, if_neg]
      exact fun e => hb (congrArg Prod.fst e).symm]
  | 6, _, _, _, _, hb =>
    refine ⟨56, ?_⟩
    have hb : b ≠ (Crc.calculateCrc payload).2 := by simpa [frame] using hb
    rw [front, show view ((frame counter type payload).set 6 b ++ x) = .crcBad counter by
      simp only [frame, view, List.cons_append, List.nil_append, List.set_cons_succ, List.set_cons_zero, hn]
      rw [if_neg (by decide), if_neg (by decide), if_neg (by simp), List.take_left, if_neg]
      exact fun e => hb (congrArg Prod.snd e).symm]
  | i + 7, hi, _, _, _, hb =>
    have hi' : i < payload.length := by simp [frame] at hi; omega
    have hb' : b ≠ payload[i] := by simpa [frame] using hb
    have hs : (frame counter type payload).set (i + 7) b = corrupted counter type payload (payload.set i b) := by
      simp [frame, corrupted]
    rw [hs]
    exact ⟨56, front_corrupted skip counter type payload _ x hl (by simp)
      (C33_burst _ _ (burst_set payload i hi' b hb'))⟩

/-- C97: a frame with one damaged byte in the sync bytes, in the CRC or in the payload is refused: the first reported
error is about this buffer, and messages are only found in the bytes after the first one. -/
theorem C97_refused_partial (r r' : Parser) (hr : r.buffer = []) (counter type : UInt8) (payload x : List UInt8)
    (hl : payload.length ≤ 255) (i : Nat) (hi : i < (frame counter type payload).length) (h2 : i ≠ 2) (h3 : i ≠ 3)
    (h4 : i ≠ 4) (b : UInt8) (hb : b ≠ (frame counter type payload)[i]) (o : Output)
    (ho : r.parse ((frame counter type payload).set i b ++ x) = (r', .ok o)) :
    (∃ pos skipped, o.errors.head? = some ⟨.parseError, (frame counter type payload).set i b ++ x, pos, skipped⟩) ∧
      Deliveries r.skipAlpParsing ((frame counter type payload).set i b ++ x).tail o.cmds r'.buffer := by
  obtain ⟨pos, hf⟩ := front_damaged r.skipAlpParsing counter type payload x hl i hi h2 h3 h4 b hb
  obtain ⟨⟨k, h5⟩, h6⟩ := refused hr (by simp [frame]) hf ho
  exact ⟨⟨pos, k, h5⟩, h6⟩

/-- The second byte of the CRC. -/
example : (0 : UInt8) ≠ (frame 1 4 [65, 66])[6]'(by decide) ∧
    ((Parser.new true).parse ((frame 1 4 [65, 66]).set 6 0 ++ frame 2 4 [67])).2.map (fun o => (o.cmds, o.errors.length)) =
      .ok ([(4, .bytes [67])], 1) := by decide +kernel

/-- C97: if nothing in the damaged frame looks like the beginning of another one, what is delivered is what is delivered
without this frame. -/
theorem C97_skipped_partial (r : Parser) (hr : r.buffer = []) (counter type : UInt8) (payload x : List UInt8)
    (hl : payload.length ≤ 255) (i : Nat) (hi : i < (frame counter type payload).length) (h2 : i ≠ 2) (h3 : i ≠ 3)
    (h4 : i ≠ 4) (b : UInt8) (hb : b ≠ (frame counter type payload)[i])
    (hc : 0xC0 ∉ ((frame counter type payload).set i b).tail) :
    match r.parse x with
    | (s, .ok o) => ∃ s' o', r.parse ((frame counter type payload).set i b ++ x) = (s', .ok o') ∧ o'.cmds = o.cmds ∧
        s'.buffer = s.buffer
    | (_, .error e) => ∃ s', r.parse ((frame counter type payload).set i b ++ x) = (s', .error e) := by
  obtain ⟨pos, hf⟩ := front_damaged r.skipAlpParsing counter type payload x hl i hi h2 h3 h4 b hb
  exact refused_skipped hr (by simp [frame]) hf hc

/-- The sync byte is damaged. -/
example : (0xC0 : UInt8) ∉ ((frame 1 4 [65, 66]).set 0 0xC1).tail ∧
    ((Parser.new true).parse ((frame 1 4 [65, 66]).set 0 0xC1 ++ frame 2 4 [67])).2.map (·.cmds) =
      .ok [(4, .bytes [67])] := by decide +kernel

/-- C97, the counter: whatever the counters of a sequence of frames are replaced by, the same messages are delivered, in
order and without an error. -/
theorem C97_counter (p : Parser) (hp : p.buffer = []) (fs gs : List Sent) (hfs : ∀ f ∈ fs, f.Valid p.skipAlpParsing)
    (hg : gs.map (fun g => (g.type, g.payload, g.msg)) = fs.map (fun f => (f.type, f.payload, f.msg)))
    (chunks : List (List UInt8)) (hne : chunks ≠ []) (h : chunks.flatten = (gs.map Sent.bytes).flatten) :
    ∃ q, feed p chunks = .ok (q, fs.map Sent.delivered, []) ∧ q.buffer = [] := by
  have hgs : ∀ g ∈ gs, g.Valid p.skipAlpParsing := by
    intro g hm
    have : (g.type, g.payload, g.msg) ∈ fs.map (fun f => (f.type, f.payload, f.msg)) := by
      rw [← hg]; exact List.mem_map_of_mem hm
    obtain ⟨f, hf, he⟩ := List.mem_map.1 this
    simp only [Prod.mk.injEq] at he
    have := hfs f hf
    unfold Sent.Valid at this ⊢
    rw [← he.1, ← he.2.1, ← he.2.2]
    exact this
  obtain ⟨q, h1, h2⟩ := C30_frames p gs hgs chunks hne (by rw [hp, List.nil_append, h])
  refine ⟨q, ?_, h2⟩
  have := congrArg (List.map fun x : UInt8 × List UInt8 × Msg => ((x.1.toNat : Int), x.2.2)) hg
  simp only [List.map_map] at this
  rw [h1, show gs.map Sent.delivered = fs.map Sent.delivered from this]

/-- A damaged counter. -/
example : (⟨1, 4, [65], .bytes [65]⟩ : Sent).Valid true ∧ (frame 1 4 [65]).set 2 77 = Sent.bytes ⟨77, 4, [65], .bytes [65]⟩ ∧
    (feed (Parser.new true) [(frame 1 4 [65]).set 2 77]).map (fun x => x.2) = .ok ([(4, .bytes [65])], []) :=
  ⟨⟨by decide, .logging _⟩, by decide +kernel, by decide +kernel⟩

/-- A wrong number among numbers that follow each other is seen twice, at the end once. -/
theorem jumps_set : ∀ (cs : List UInt8) (down : Int) (i : Nat) (hi : i < cs.length) (c : UInt8), jumps down cs = 0 →
    c ≠ cs[i] → jumps down (cs.set i c) = if i + 1 = cs.length then 1 else 2 := by
  intro cs
  induction cs with
  | nil => intro _ i hi; exact absurd hi (by simp)
  | cons a cs ih =>
    intro down i hi c h0 hc
    simp only [jumps] at h0
    have ha : (a.toNat : Int) = if down ≥ 255 then 0 else down + 1 := by
      by_contra hn; rw [if_neg hn] at h0; omega
    have h1 : jumps a.toNat cs = 0 := by omega
    cases i with
    | succ i =>
      rw [List.set_cons_succ, jumps, if_pos ha, ih a.toNat i (by simpa using hi) c h1 (by simpa using hc)]
      simp
    | zero =>
      have hca : c.toNat ≠ a.toNat := fun h => hc (UInt8.toNat_inj.1 h)
      have hn : ¬ ((c.toNat : Int) = if down ≥ 255 then 0 else down + 1) := by
        rw [← ha]; exact fun h => hca (by exact_mod_cast h)
      rw [List.set_cons_zero, jumps, if_neg hn]
      cases cs with
      | nil => simp [jumps]
      | cons b cs =>
        simp only [jumps] at h1 ⊢
        have hb : (b.toNat : Int) = if (a.toNat : Int) ≥ 255 then 0 else (a.toNat : Int) + 1 := by
          by_contra hx; rw [if_neg hx] at h1; omega
        have hc' := c.toNat_lt
        have ha' := a.toNat_lt
        have : ¬ ((b.toNat : Int) = if (c.toNat : Int) ≥ 255 then 0 else (c.toNat : Int) + 1) := by
          rw [hb]; split <;> split <;> omega
        rw [if_neg this]
        simp
        omega

/-- C97, the counter: one damaged counter in a sequence of frames whose numbers follow each other changes nothing but the
error counter, which grows by two; by one if it is in the last frame. -/
theorem C97_counter_shows (p : Parser) (hp : p.buffer = []) (fs : List Sent) (hfs : ∀ f ∈ fs, f.Valid p.skipAlpParsing)
    (h0 : jumps p.downCounter (fs.map Sent.counter) = 0) (i : Nat) (hi : i < fs.length) (c : UInt8)
    (hc : c ≠ fs[i].counter) (chunks : List (List UInt8)) (hne : chunks ≠ [])
    (h : chunks.flatten = ((fs.map Sent.bytes).set i (fs[i].bytes.set 2 c)).flatten) :
    ∃ q, feed p chunks = .ok (q, fs.map Sent.delivered, []) ∧ q.buffer = [] ∧
      q.errorCounter = p.errorCounter + if i + 1 = fs.length then 1 else 2 := by
  have hb : fs[i].bytes.set 2 c = Sent.bytes { fs[i] with counter := c } := by simp [Sent.bytes, frame]
  rw [hb, ← List.map_set] at h
  have hg : ∀ g ∈ fs.set i { fs[i] with counter := c }, g.Valid p.skipAlpParsing := by
    intro g hm
    rcases List.mem_or_eq_of_mem_set hm with hm | rfl
    · exact hfs g hm
    · exact hfs fs[i] (List.getElem_mem hi)
  obtain ⟨q, h1, h2, h3, -⟩ := C93_numbers p hp _ hg hne h
  refine ⟨q, ?_, h2, ?_⟩
  · rw [h1, List.map_set, show Sent.delivered { fs[i] with counter := c } = fs[i].delivered from rfl]
    congr 3
    apply List.ext_getElem (by simp)
    intro k hk _
    by_cases hki : i = k
    · subst hki; simp
    · simp [List.getElem_set, hki]
  · rw [h3, List.map_set, jumps_set _ _ _ (by simpa using hi) _ h0 (by simpa using hc)]
    simp

/-- The second of three frames. -/
example : jumps 0 [1, 2, 3] = 0 ∧ jumps 0 [1, 77, 3] = 2 ∧
    (feed (Parser.new true) [frame 1 4 [65], (frame 2 4 [66]).set 2 77, frame 3 4 [67]]).map
      (fun x => (x.2.1.length, x.1.errorCounter)) = .ok (3, 2) := by decide +kernel

/-- C97, full statement: a frame with one damaged byte never delivers another message than the one sent. This is false of
the message type, for every ALP frame: the message is delivered with any other type, also one that does not exist, without
an error; with the type of log messages the bytes of the command are delivered as text. -/
theorem C97_type_refuted (p : Parser) (hp : p.buffer = []) (f : Sent) (hf : f.Valid p.skipAlpParsing)
    (h4 : f.type ≠ 4) (h5 : f.type ≠ 5) (type : UInt8) (ht : type ≠ 5) (chunks : List (List UInt8)) (hne : chunks ≠ [])
    (h : chunks.flatten = f.bytes.set 3 type) :
    ∃ q, feed p chunks = .ok (q, [(type.toNat, if type = 4 then .bytes f.payload else f.msg)], []) ∧ q.buffer = [] := by
  obtain ⟨c, t, pl, m⟩ := f
  obtain ⟨hl, hc⟩ := hf
  simp only at h4 h5 hl hc
  have hv : Sent.Valid p.skipAlpParsing ⟨c, type, pl, if type = 4 then .bytes pl else m⟩ := by
    refine ⟨hl, ?_⟩
    show Carries _ type pl _
    split
    · next he => subst he; exact .logging _
    · next hn =>
      cases hc with
      | rebooted r => exact absurd rfl h5
      | logging => exact absurd rfl h4
      | raw _ _ hs => exact .raw _ _ hs hn ht
      | alp _ _ c hs _ _ hp => exact .alp _ _ c hs hn ht hp
  obtain ⟨q, h1, h2⟩ := C30_frames p [_] (by intro g hg; rw [List.mem_singleton.1 hg]; exact hv) chunks hne
    (by rw [hp, List.nil_append, h]; simp [Sent.bytes, frame])
  exact ⟨q, h1, h2⟩

/-- A reading command that becomes a message of type 129. -/
example : ∃ m, (⟨1, 1, [1, 0x40, 0, 8], m⟩ : Sent).Valid false ∧ (feed (Parser.new false)
    [(frame 1 1 [1, 0x40, 0, 8]).set 3 129]).map (fun x => x.2) = .ok ([(129, m)], []) :=
  ⟨.command ⟨[.regular false false (.readFileData ⟨⟨0x40, ⟨0⟩⟩, ⟨8⟩⟩)], none, false, none, true, false, none⟩,
    ⟨by decide, .alp _ _ _ rfl (by decide) (by decide) (by decide +kernel)⟩, by decide +kernel⟩

/-- C97, the length: what a damaged length byte does depends on the bytes that follow. If there are less than it says,
the parser waits, without an error. If there are enough and the CRC of so many bytes is another one than that of the
payload, the frame is refused as above. If it happens to be the same, these bytes are taken for the payload. -/
theorem C97_length (r : Parser) (hr : r.buffer = []) (counter type length : UInt8) (payload x : List UInt8) :
    let d := (frame counter type payload).set 4 length ++ x
    let read := (payload ++ x).take length.toNat
    ((payload ++ x).length < length.toNat →
      ∃ q o, r.parse d = (q, .ok o) ∧ o.cmds = [] ∧ o.errors = [] ∧ q.buffer = d) ∧
    (length.toNat ≤ (payload ++ x).length → Crc.calculateCrc read ≠ Crc.calculateCrc payload →
      ∀ q o, r.parse d = (q, .ok o) →
        (∃ skipped, o.errors.head? = some ⟨.parseError, d, 56, skipped⟩) ∧
          Deliveries r.skipAlpParsing d.tail o.cmds q.buffer) ∧
    (length.toNat ≤ (payload ++ x).length → Crc.calculateCrc read = Crc.calculateCrc payload →
      d = frame counter type read ++ (payload ++ x).drop length.toNat) := by
  have hd : (frame counter type payload).set 4 length ++ x = 0xC0 :: 0 :: counter :: type :: length ::
      (Crc.calculateCrc payload).1 :: (Crc.calculateCrc payload).2 :: (payload ++ x) := by simp [frame]
  intro d read
  change d = _ at hd
  refine ⟨fun h => ?_, fun h hc q o ho => ?_, fun h hc => ?_⟩
  · have hv : view d = .short := by rw [hd]; simp [view]; intro h'; simp at h; omega
    have ht := trace_need (skip := r.skipAlpParsing) (b := d) (by rw [hd]; simp) (by rw [front, hv])
    rw [parse_trace, hr, List.nil_append, ht]
    exact ⟨_, _, rfl, rfl, rfl, rfl⟩
  · have hv : view d = .crcBad counter := by
      rw [hd]
      simp only [view]
      rw [if_neg (by decide), if_neg (by decide), if_neg (by omega), if_neg hc]
    exact refused hr (by rw [hd]; simp) (by rw [front, hv]) ho
  · rw [hd, frame, hc]
    have : read.length = length.toNat := by simp only [read, List.length_take]; omega
    rw [this]
    simp [read]

/-- The three cases: a length of 3, of 1, and of 6 instead of 14. -/
example : ((Parser.new true).parse ((frame 1 4 [65, 66]).set 4 3)).2.map (fun o => (o.cmds, o.errors.length)) = .ok ([], 0) ∧
    ((Parser.new true).parse ((frame 1 4 [65, 66]).set 4 1)).2.map (fun o => (o.cmds, o.errors.length)) = .ok ([], 1) ∧
    Crc.calculateCrc [0xB4, 7, 1, 0x40, 0, 8] =
      Crc.calculateCrc [0xB4, 7, 1, 0x40, 0, 8, 4, 0x41, 0, 4, 0, 2, 240, 103] := by decide +kernel

/-- C97, full statement: a frame with one damaged byte never delivers another message than the one sent. This is false of the
length: a command that reads a file and writes another one; with one flipped bit in the length byte a command is delivered
that only reads. -/
theorem C97_length_refuted : ∃ (payload : List UInt8) (c c' : Command), 14 ^^^ 6 = 8 ∧ payload.length = 14 ∧
    ((Parser.new false).parse (frame 1 1 payload)).2.map (fun o => (o.cmds, o.errors.length)) =
      .ok ([(1, .command c)], 0) ∧
    ((Parser.new false).parse ((frame 1 1 payload).set 4 6)).2.map (fun o => o.cmds) = .ok [(1, .command c')] ∧
    c.actions.length = 2 ∧ c'.actions = c.actions.take 1 ∧ c'.tagId = c.tagId := by
  refine ⟨[0xB4, 7, 1, 0x40, 0, 8, 4, 0x41, 0, 4, 0, 2, 240, 103],
    ⟨[.regular false false (.readFileData ⟨⟨0x40, ⟨0⟩⟩, ⟨8⟩⟩),
      .regular false false (.writeFileData ⟨⟨0x41, ⟨0⟩⟩, ⟨4⟩, [0, 2, 240, 103]⟩)], none, false, some 7, true, false, none⟩,
    ⟨[.regular false false (.readFileData ⟨⟨0x40, ⟨0⟩⟩, ⟨8⟩⟩)], none, false, some 7, true, false, none⟩, ?_⟩
  decide +kernel

end Verif.Serial
