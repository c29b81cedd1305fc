import Verif.Lemmas.Crc
import Verif.Lemmas.SerialDeliver

/-! C33: what the CRC of the serial interface detects. -/

namespace Verif.Serial

open Verif

/-- The payload `q` is `p` with the bits of one window of at most 16 bits changed. -/
def Burst (p q : List UInt8) : Prop :=
  ∃ before window window' after : List Bool,
    bytesToBits p = before ++ window ++ after ∧ bytesToBits q = before ++ window' ++ after ∧
    window.length = window'.length ∧ window.length ≤ 16 ∧ window ≠ window'

/-- The payload `q` is `p` with an odd number of bits changed. -/
def OddFlips (p q : List UInt8) : Prop :=
  p.length = q.length ∧
  (List.zipWith (· ^^ ·) (bytesToBits p) (bytesToBits q)).count true % 2 = 1

/-- The payload `q` is `p` with exactly two bits flipped. -/
def TwoFlips (p q : List UInt8) : Prop :=
  ∃ (before between after : List Bool) (x y : Bool),
    bytesToBits p = before ++ [x] ++ between ++ [y] ++ after ∧
    bytesToBits q = before ++ [!x] ++ between ++ [!y] ++ after

/-- C33: payloads of any length that differ only inside a window of at most 16 bits have different
CRCs. -/
theorem C33_burst (p q : List UInt8) (h : Burst p q) :
    Crc.calculateCrc p ≠ Crc.calculateCrc q := by
  obtain ⟨pre, w, w', post, h1, h2, h3, h4, h5⟩ := h
  intro e
  have e := Crc.calculateCrc_inj e
  unfold Crc.crc16 at e
  rw [h1, h2, Crc.bits_append, Crc.bits_append, Crc.bits_append (l := pre ++ w'),
    Crc.bits_append (l := pre)] at e
  exact h5 (Crc.bits_burst _ h3 h4 (Crc.bits_inj _ e))

/-- A burst of five bits over a byte boundary. -/
example : Burst [0x12, 0x34, 0x56] [0x12, 0x3C, 0xD6] :=
  ⟨(bytesToBits [0x12, 0x34, 0x56]).take 12, [false, true, false, false, false],
    [true, true, false, false, true], (bytesToBits [0x12, 0x34, 0x56]).drop 17,
    by decide, by decide, rfl, by decide, by decide⟩

/-- A single flipped bit, anywhere in a payload of any length, is such a burst. -/
theorem C33_single_bit (p q : List UInt8) (before after : List Bool) (x : Bool)
    (hp : bytesToBits p = before ++ [x] ++ after) (hq : bytesToBits q = before ++ [!x] ++ after) :
    Crc.calculateCrc p ≠ Crc.calculateCrc q :=
  C33_burst p q ⟨before, [x], [!x], after, hp, hq, rfl, by simp, by simp⟩

example : Crc.calculateCrc [0x80] ≠ Crc.calculateCrc [0x90] :=
  C33_single_bit _ _ [true, false, false] [false, false, false, false] false (by decide) (by decide)

/-- C33: any odd number of flipped bits, in payloads of any length, changes the CRC. -/
theorem C33_odd (p q : List UInt8) (h : OddFlips p q) :
    Crc.calculateCrc p ≠ Crc.calculateCrc q := by
  obtain ⟨h1, h2⟩ := h
  intro e
  have e := congrArg Crc.parity (Crc.calculateCrc_inj e)
  unfold Crc.crc16 at e
  rw [Crc.parity_bits, Crc.parity_bits] at e
  have hd := Crc.parity_diff (bytesToBits p) (bytesToBits q) (by simp [h1])
  rw [h2, decide_eq_true rfl] at hd
  revert e hd
  cases Crc.parity 0xFFFF#16 <;> cases (bytesToBits p).foldl (· ^^ ·) false <;>
    cases (bytesToBits q).foldl (· ^^ ·) false <;> simp

/-- Three flips, far apart. -/
example : OddFlips ([0x01] ++ List.replicate 40 0 ++ [0xFF] ++ List.replicate 9 7 ++ [3])
    ([0x81] ++ List.replicate 40 0 ++ [0xEF] ++ List.replicate 9 7 ++ [2]) := by
  unfold OddFlips; decide +kernel

/-- C33: two flipped bits anywhere in a payload that fits into a frame change the CRC. -/
theorem C33_two_bits (p q : List UInt8) (hp : p.length ≤ 255) (h : TwoFlips p q) :
    Crc.calculateCrc p ≠ Crc.calculateCrc q := by
  obtain ⟨pre, mid, post, x, y, h1, h2⟩ := h
  intro e
  have e := Crc.calculateCrc_inj e
  have hl := congrArg List.length h1
  simp only [bytesToBits_length, List.length_append, List.length_cons, List.length_nil] at hl
  unfold Crc.crc16 at e
  have g : ∀ a b : Bool, pre ++ [a] ++ mid ++ [b] ++ post = pre ++ ((a :: mid ++ [b]) ++ post) := by
    intro a b; simp
  rw [h1, h2, g, g, Crc.bits_append, Crc.bits_append, Crc.bits_append (l := pre),
    Crc.bits_append (l := (!x) :: mid ++ [!y])] at e
  exact Crc.bits_two _ x y mid (by omega) (Crc.bits_inj _ e)

example : TwoFlips ([0x01] ++ List.replicate 253 0 ++ [0xFF]) ([0x81] ++ List.replicate 253 0 ++ [0xFE]) :=
  ⟨[], (bytesToBits ([0x01] ++ List.replicate 253 0 ++ [0xFF])).drop 1 |>.take 2038, [], false, true,
    by decide +kernel, by decide +kernel⟩

/-- The header of the frame for payload `p` followed by another payload. -/
def corrupted (counter type : UInt8) (p q : List UInt8) : List UInt8 :=
  [0xC0, 0, counter, type, UInt8.ofNat p.length, (Crc.calculateCrc p).1, (Crc.calculateCrc p).2] ++ q

theorem front_corrupted (skip : Bool) (counter type : UInt8) (p q x : List UInt8)
    (hp : p.length ≤ 255) (hl : q.length = p.length)
    (hq : Crc.calculateCrc p ≠ Crc.calculateCrc q) :
    front skip (corrupted counter type p q ++ x) = .bad .parseError 56 := by
  have hv : view (corrupted counter type p q ++ x) = .crcBad counter := by
    have hn : (UInt8.ofNat p.length).toNat = p.length := by
      rw [UInt8.toNat_ofNat']; omega
    simp only [view, corrupted, List.cons_append, List.nil_append, ne_eq, not_true_eq_false,
      if_false, hn]
    rw [if_neg (by rw [List.length_append]; omega), if_neg]
    rw [← hl, List.take_left]
    exact fun e => hq e.symm
  rw [front, hv]

/-- C33, the parser: when a buffer begins with a frame whose payload was hit by a burst of at most 16
bits, by an odd number of bit flips or by two bit flips, the parser rejects this frame: its first
reported error is about this buffer, with the position after the header, and messages are only found
in the bytes after the first one. -/
theorem C33_rejected (r r' : Parser) (hb : r.buffer = []) (counter type : UInt8) (p q x : List UInt8)
    (hp : p.length ≤ 255) (h : Burst p q ∨ OddFlips p q ∨ TwoFlips p q) (o : Output)
    (ho : r.parse (corrupted counter type p q ++ x) = (r', .ok o)) :
    (∃ skipped, o.errors.head? =
      some ⟨.parseError, corrupted counter type p q ++ x, 56, skipped⟩) ∧
    Deliveries r.skipAlpParsing (corrupted counter type p q ++ x).tail o.cmds r'.buffer := by
  have hlen : q.length = p.length := by
    rcases h with ⟨a, b, b', c, h1, h2, h3, -⟩ | h | ⟨a, b, c, u, v, h1, h2⟩
    · have e1 := congrArg List.length h1
      have e2 := congrArg List.length h2
      simp only [bytesToBits_length, List.length_append] at e1 e2
      omega
    · exact h.1.symm
    · have e1 := congrArg List.length h1
      have e2 := congrArg List.length h2
      simp only [bytesToBits_length, List.length_append, List.length_cons, List.length_nil] at e1 e2
      omega
  have hcrc : Crc.calculateCrc p ≠ Crc.calculateCrc q := by
    rcases h with h | h | h
    · exact C33_burst p q h
    · exact C33_odd p q h
    · exact C33_two_bits p q hp h
  have hf := front_corrupted r.skipAlpParsing counter type p q x hp hlen hcrc
  have ht := trace_bad (by simp [corrupted]) hf
  rw [parse_trace, hb, List.nil_append, ht, finish] at ho
  injection ho with h1 h2
  split at h2
  · cases h2
  · injection h2 with h2
    subst h1
    subst h2
    refine ⟨⟨_, rfl⟩, ?_⟩
    have hd := trace_deliveries r.skipAlpParsing _
      (skipBadBufferContent (corrupted counter type p q ++ x)).1 rfl
    have he : skipBadBufferContent (corrupted counter type p q ++ x) =
      skipBadBufferContent (0xC0 :: (corrupted counter type p q ++ x).tail) := rfl
    rw [he, (skip_cons _ _).1] at hd ⊢
    obtain ⟨g, hg⟩ := fromSync_suffix (corrupted counter type p q ++ x).tail
    have := hd.gap g
    rw [← hg] at this
    exact this

/-- A log frame in which one bit is flipped, followed by one byte. -/
example : ((Parser.new true).parse (corrupted 1 4 [65, 66] [65, 67] ++ [3])).2.toOption.isSome = true ∧
    OddFlips [65, 66] [65, 67] := by
  unfold OddFlips; decide +kernel

/-- C33, the parser: if moreover neither the header behind the sync byte nor the corrupted payload
contains 0xC0, the corrupted frame is skipped altogether: what is delivered is what is delivered from
the bytes after it. -/
theorem C33_skipped (r : Parser) (hb : r.buffer = []) (counter type : UInt8) (p q x : List UInt8)
    (hp : p.length ≤ 255) (hl : q.length = p.length)
    (h : Burst p q ∨ OddFlips p q ∨ TwoFlips p q)
    (hc : 0xC0 ∉ (corrupted counter type p q).tail) :
    match r.parse x with
    | (s, .ok o) => ∃ s' o', r.parse (corrupted counter type p q ++ x) = (s', .ok o') ∧
        o'.cmds = o.cmds ∧ s'.buffer = s.buffer
    | (_, .error e) => ∃ s', r.parse (corrupted counter type p q ++ x) = (s', .error e) := by
  have hcrc : Crc.calculateCrc p ≠ Crc.calculateCrc q := by
    rcases h with h | h | h
    · exact C33_burst p q h
    · exact C33_odd p q h
    · exact C33_two_bits p q hp h
  have ht := trace_bad (by simp [corrupted])
    (front_corrupted r.skipAlpParsing counter type p q x hp hl hcrc)
  have he : (skipBadBufferContent (corrupted counter type p q ++ x)).1 = fromSync x := by
    have : skipBadBufferContent (corrupted counter type p q ++ x) =
      skipBadBufferContent (0xC0 :: ((corrupted counter type p q).tail ++ x)) := rfl
    rw [this, (skip_cons _ _).1, fromSync_append, if_pos (fromSync_none hc)]
  rw [he] at ht
  have hx := trace_fromSync r.skipAlpParsing x
  obtain ⟨h1, h2, h3, h4⟩ := hx
  rw [parse_trace, parse_trace, hb, List.nil_append, List.nil_append, ht]
  simp only [finish, h4]
  split
  · next s o heq =>
    injection heq with e1 e2
    split at e2
    · cases e2
    · next hn =>
      injection e2 with e2
      subst e1 e2
      refine ⟨_, _, by rw [if_neg hn], ?_, ?_⟩
      · simp [Ev.msgs, h1]
      · simp [h3]
  · next s e heq =>
    injection heq with e1 e2
    split at e2
    · next hn =>
      injection e2 with e2
      subst e2
      exact ⟨_, by rw [if_pos hn]⟩
    · cases e2

/-- A log frame with one flipped bit before an intact one. -/
example : ((Parser.new true).parse (corrupted 1 4 [65, 66] [65, 67] ++ frame 2 4 [67])).2.map (·.cmds)
    = .ok [(4, .bytes [67])] := by decide +kernel

end Verif.Serial
