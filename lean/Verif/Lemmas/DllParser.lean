import Verif.Lemmas.Dll

/-! The DLL parser object. -/

namespace Verif.Dll

open Verif

/-! ### Exceptions -/

/-- The exceptions of the frame parsers. -/
def DllErr (e : PyErr) : Prop :=
  e = .readError ∨ e = .parseError ∨ e = .valueError ∨ e = .attributeError ∨
    e = .assertion false ∨ e = .assertion true

theorem DllErr.of {e : PyErr} (h : AlpErr e) : DllErr e := by
  unfold AlpErr at h
  unfold DllErr
  tauto

variable {α β : Type}

/-- All exceptions of `p` on aligned streams satisfy `DllErr`, and `p` keeps the alignment. -/
def ErrA (p : P α) : Prop := GoodA p ∧ ∀ s e s', s.pos % 8 = 0 → p s = .err e s' → DllErr e

theorem ErrA.of {p : P α} (hg : GoodA p) (h : ErrsIn AlpErr p) : ErrA p :=
  ⟨hg, fun s e s' _ he => .of (h s e s' he)⟩

theorem ErrA.bind {p : P α} {f : α → P β} (hp : ErrA p) (hf : ∀ a, ErrA (f a)) :
    ErrA (p >>= f) := by
  refine ⟨hp.1.bind fun a => (hf a).1, fun s e s' hs h => ?_⟩
  rw [P.bind_apply] at h
  cases hps : p s with
  | err x s1 =>
    rw [hps] at h
    injection h with h1 h2
    subst h1
    exact hp.2 s _ s1 hs hps
  | ok a s1 =>
    rw [hps] at h
    obtain ⟨c, -, e2, e3⟩ := hp.1.ok hs hps
    exact (hf a).2 s1 e s' (by have := e3.1; omega) h

theorem ErrA.opt {p : P α} (c : Bool) (hp : ErrA p) : ErrA (P.opt c p) := by
  cases c
  · exact ⟨GoodA.pure _, fun s e s' _ h => by cases h⟩
  · exact hp.bind fun _ => ⟨GoodA.pure _, fun s e s' _ h => by cases h⟩

theorem ErrA.pure (a : α) : ErrA (Pure.pure a : P α) :=
  ⟨GoodA.pure a, fun s e s' _ h => by cases h⟩

theorem ErrA.assert (c : Prop) [Decidable c] : ErrA (P.assert c true) := by
  refine ⟨GoodA.assert c true, fun s e s' _ h => ?_⟩
  unfold P.assert at h
  split at h
  · cases h
  · injection h with h1 _
    subst h1
    simp [DllErr]

theorem ErrA.raise : ErrA (P.raise (.assertion false) : P α) := by
  refine ⟨GoodA.raise _, fun s e s' _ h => ?_⟩
  injection h with h1 _
  subst h1
  simp [DllErr]

theorem ErrA.validate {c : Prop} [Decidable c] {a : α} : ErrA (P.lift (Verif.validate c a)) :=
  .of (GoodA.lift _) ErrsIn.validate

theorem ErrA.uint (n : Nat) (h : n % 8 = 0) : ErrA (P.uint n) :=
  .of (GoodA.uint n h) (ErrsIn.uint (by simp [AlpErr]))
theorem ErrA.sint (n : Nat) (h : n % 8 = 0) : ErrA (P.sint n) :=
  .of (GoodA.sint n h) (ErrsIn.sint (by simp [AlpErr]))
theorem ErrA.bytes (n : Nat) : ErrA (P.bytes n) :=
  .of (GoodA.bytes n) (ErrsIn.bytes (by simp [AlpErr]))

theorem ErrA.alp (n : Int) : ErrA (AlpParser.parse n) := by
  refine ⟨GoodA.alp n, fun s e s' hs h => ?_⟩
  have := AlpParser.parse_spec n s hs
  rw [h] at this
  obtain ⟨_, _, _, h, _⟩ := this
  exact .of h

theorem fgControl_errs : ErrA ForegroundFrameControl.parse := by
  refine .of (GoodA.of ForegroundFrameControl.good ForegroundFrameControl.adv) ?_
  unfold ForegroundFrameControl.parse ForegroundFrameControl.new
  have := IdType.err
  refine ErrsIn.bind (ErrsIn.uint (by simp [AlpErr])) fun _ => ErrsIn.bind (this _) fun _ => ?_
  errs

theorem bgControl_errs : ErrA BackgroundFrameControl.parse := by
  refine .of (GoodA.of BackgroundFrameControl.good BackgroundFrameControl.adv) ?_
  unfold BackgroundFrameControl.parse BackgroundFrameControl.new
  have := IdType.err
  refine ErrsIn.bind (ErrsIn.uint (by simp [AlpErr])) fun _ => ErrsIn.bind (this _) fun _ => ?_
  errs

theorem npControl_errs : ErrA D7anp.Control.parse := by
  refine .of (GoodA.of npControl_good npControl_adv) ?_
  unfold D7anp.Control.parse
  refine ErrsIn.bind (ErrsIn.bool (by simp [AlpErr])) fun _ =>
    ErrsIn.bind (ErrsIn.bool (by simp [AlpErr])) fun _ =>
    ErrsIn.bind (ErrsIn.uint (by simp [AlpErr])) fun _ => ErrsIn.bind (IdType.err _) fun _ =>
    ErrsIn.bind (ErrsIn.uint (by simp [AlpErr])) fun _ => ErrsIn.bind (NlsMethod.err _) fun _ => ?_
  errs

theorem tpControl_errs : ErrA D7atp.Control.parse := by
  refine .of (GoodA.of tpControl_good tpControl_adv) ?_
  unfold D7atp.Control.parse
  errs

theorem parseTarget_errs (t : IdType) : ErrA (parseTarget t) := by
  cases t
  · exact ErrA.pure _
  · exact ErrA.pure _
  · exact (ErrA.bytes 8).bind fun _ => ErrA.pure _
  · exact (ErrA.bytes 2).bind fun _ => ErrA.pure _

theorem parseOriginId_errs (c : D7anp.Control) : ErrA (D7anp.parseOriginId c) := by
  obtain ⟨a, b, t, n⟩ := c
  cases a
  · cases t
    · exact ErrA.raise
    · exact ErrA.raise
    · exact (ErrA.bytes 8).bind fun _ => ErrA.pure _
    · exact (ErrA.bytes 2).bind fun _ => ErrA.pure _
  · exact ErrA.pure _

theorem parseAckTemplate_errs (i : Int) : ErrA (D7atp.parseAckTemplate i) :=
  (ErrA.uint 8 rfl).bind fun _ => (ErrA.uint 8 rfl).bind fun _ => (ErrA.assert _).bind fun _ =>
    (ErrA.assert _).bind fun _ => ErrA.pure _

theorem tpFrame_errs (n : Int) : ErrA (D7atp.Frame.parse n) := by
  have hct : ErrA CT.parse := .of (GoodA.of CT.good CT.adv) CT.errs
  refine tpControl_errs.bind fun c => ?_
  refine (ErrA.uint 8 rfl).bind fun _ => ?_
  refine (ErrA.uint 8 rfl).bind fun _ => ?_
  refine (ErrA.opt _ (ErrA.uint 8 rfl)).bind fun _ => ?_
  refine (ErrA.opt _ hct).bind fun _ => ?_
  refine (ErrA.opt _ hct).bind fun _ => ?_
  refine (ErrA.opt _ hct).bind fun _ => ?_
  refine (ErrA.opt _ (parseAckTemplate_errs _)).bind fun _ => ?_
  refine (ErrA.assert _).bind fun _ => ?_
  refine (ErrA.assert _).bind fun _ => ?_
  refine (ErrA.alp _).bind fun _ => ?_
  exact ErrA.validate

theorem npFrame_errs (n : Int) : ErrA (D7anp.Frame.parse n) := by
  refine npControl_errs.bind fun c => ?_
  refine (ErrA.uint 8 rfl).bind fun _ => ?_
  refine (ErrA.assert _).bind fun _ => ?_
  refine (ErrA.assert _).bind fun _ => ?_
  refine (parseOriginId_errs _).bind fun _ => ?_
  refine (tpFrame_errs _).bind fun _ => ?_
  exact ErrA.validate

theorem parseFrame_errs (t : FrameType) : ErrA (parseFrame t) := by
  cases t
  · refine ErrA.bind ?_ fun _ => ErrA.pure _
    refine (ErrA.sint 8 rfl).bind fun _ => ?_
    refine (ErrA.sint 8 rfl).bind fun _ => ?_
    refine fgControl_errs.bind fun _ => ?_
    refine (parseTarget_errs _).bind fun _ => ?_
    refine (npFrame_errs _).bind fun _ => ?_
    refine (ErrA.uint 16 rfl).bind fun _ => ?_
    exact ErrA.validate
  · refine ErrA.bind ?_ fun _ => ErrA.pure _
    refine (ErrA.sint 8 rfl).bind fun _ => ?_
    refine bgControl_errs.bind fun _ => ?_
    refine (ErrA.uint 16 rfl).bind fun _ => ?_
    refine (ErrA.uint 16 rfl).bind fun _ => ?_
    exact ErrA.validate

/-! ### The parser object -/

theorem parseFrame_nil (t : FrameType) : parseFrame t (stream []) = .err .readError ⟨0, []⟩ := by
  cases t <;> rfl

theorem consumed_ne_nil {t : FrameType} {d : List UInt8} {f : Frame} {s : St}
    (h : parseFrame t (stream (d ++ [])) = .ok f s) : d ≠ [] := by
  rintro rfl
  rw [List.append_nil, parseFrame_nil] at h
  cases h

theorem parse_ok {p : Parser} {bs d r : List UInt8} {f : Frame} (hb : p.buffer ++ bs = d ++ r)
    (hd : d ≠ [])
    (h : parseFrame p.frameType (stream (d ++ r)) = .ok f ⟨8 * d.length, bytesToBits r⟩) :
    p.parse bs = ({ p with buffer := r }, .ok ⟨[some f], 8 * d.length, 8 * r.length⟩) := by
  unfold Parser.parse Parser.parseBuffer Parser.parseOne
  have h0 : 0 < d.length := List.length_pos_iff.mpr hd
  simp only [hb]
  rw [if_pos (by rw [List.length_append]; omega)]
  simp only [h]
  have : 8 * d.length / 8 = d.length := by omega
  rw [this, List.drop_left, Nat.mul_comm r.length]

theorem parse_wait {p : Parser} {bs : List UInt8} {s : St}
    (h : parseFrame p.frameType (stream (p.buffer ++ bs)) = .err .readError s) :
    p.parse bs = ({ p with buffer := p.buffer ++ bs }, .ok ⟨[none], 0, 8 * (p.buffer ++ bs).length⟩) := by
  unfold Parser.parse Parser.parseBuffer Parser.parseOne
  simp only [h, ite_self]
  rw [Nat.mul_comm]

theorem parse_empty {p : Parser} (h : p.buffer = []) : p.parse [] = (p, .ok ⟨[none], 0, 0⟩) := by
  obtain ⟨b, t⟩ := p
  subst h
  rfl

theorem parse_err {p : Parser} {bs : List UInt8} {s : St} {e : PyErr} (he : e ≠ .readError)
    (h : parseFrame p.frameType (stream (p.buffer ++ bs)) = .err e s) :
    p.parse bs = ({ p with buffer := p.buffer ++ bs }, .error e) := by
  have hne : p.buffer ++ bs ≠ [] := by
    intro h0
    rw [h0] at h
    rw [parseFrame_nil] at h
    injection h with h1 _
    exact he h1.symm
  have h0 : 0 < (p.buffer ++ bs).length := List.length_pos_iff.mpr hne
  unfold Parser.parse Parser.parseBuffer Parser.parseOne
  simp only [h]
  rw [if_pos h0]

/-- A call that raises: the frame parser raised that exception on the buffer. -/
theorem parse_err_inv {p q : Parser} {bs : List UInt8} {e : PyErr} (h : p.parse bs = (q, .error e)) :
    e ≠ .readError ∧ q = { p with buffer := p.buffer ++ bs } ∧
      ∃ s, parseFrame p.frameType (stream (p.buffer ++ bs)) = .err e s := by
  cases hr : parseFrame p.frameType (stream (p.buffer ++ bs)) with
  | ok f s =>
    obtain ⟨d, r, e1, -, e3⟩ := (parseFrame_good p.frameType).ok_bytes hr
    rw [parse_ok e1 (consumed_ne_nil (e3 [])) (e3 r)] at h
    injection h with _ h2
    cases h2
  | err x s =>
    by_cases hx : x = .readError
    · subst hx
      rw [parse_wait hr] at h
      injection h with _ h2
      cases h2
    · rw [parse_err hx hr] at h
      injection h with h1 h2
      injection h2 with h2
      subst h2
      exact ⟨hx, h1.symm, s, rfl⟩

/-- A call that returns: one frame, read from the front of the buffer, or `None`. -/
theorem parse_ok_inv {p q : Parser} {bs : List UInt8} {o : Output} (h : p.parse bs = (q, .ok o)) :
    (o = ⟨[none], 0, 8 * (p.buffer ++ bs).length⟩ ∧ q = { p with buffer := p.buffer ++ bs }) ∨
    ∃ f d r, p.buffer ++ bs = d ++ r ∧ q = { p with buffer := r } ∧
      o = ⟨[some f], 8 * d.length, 8 * r.length⟩ ∧
      ∀ r', parseFrame p.frameType (stream (d ++ r')) = .ok f ⟨8 * d.length, bytesToBits r'⟩ := by
  cases hr : parseFrame p.frameType (stream (p.buffer ++ bs)) with
  | ok f s =>
    right
    obtain ⟨d, r, e1, e2, e3⟩ := (parseFrame_good p.frameType).ok_bytes hr
    rw [parse_ok e1 (consumed_ne_nil (e3 [])) (e3 r)] at h
    injection h with h1 h2
    injection h2 with h2
    exact ⟨f, d, r, e1, h1.symm, h2.symm, e3⟩
  | err x s =>
    by_cases hx : x = .readError
    · subst hx
      rw [parse_wait hr] at h
      injection h with h1 h2
      injection h2 with h2
      exact .inl ⟨h2.symm, h1.symm⟩
    · rw [parse_err hx hr] at h
      injection h with _ h2
      cases h2

/-! ### Frames on air -/

theorem OnAir.parse {t : FrameType} {d : List UInt8} {f : Frame} (h : OnAir t d f) (r : List UInt8) :
    parseFrame t (stream (d ++ r)) = .ok f ⟨8 * d.length, bytesToBits r⟩ := by
  cases h with
  | foreground a cmd hv hl hs hc =>
    unfold parseFrame
    simp only [P.bind_apply, frame_ok a hv cmd hl hs hc r, P.pure_apply]
  | background a ht hs =>
    unfold parseFrame
    simp only [P.bind_apply, bg_ok a ht hs r, P.pure_apply]
    rfl

theorem OnAir.ne_nil {t : FrameType} {d : List UInt8} {f : Frame} (h : OnAir t d f) : d ≠ [] := by
  cases h with
  | foreground a => simp [Air.bytes]
  | background a => simp [BgAir.bytes]

theorem OnAir.short {t : FrameType} {d d' : List UInt8} {f : Frame} (h : OnAir t (d ++ d') f)
    (hne : d' ≠ []) : ∃ s, parseFrame t (stream d) = .err .readError s := by
  have := h.parse []
  rw [List.append_nil] at this
  exact (parseFrame_good t).short_bytes (s' := ⟨0, []⟩) this hne

/-! ### First bytes and checksum of a returned frame -/

theorem sint_stream_inv {bs : List UInt8} {v : Int} {s : St} {pos : Nat}
    (h : P.sint 8 ⟨pos, bytesToBits bs⟩ = .ok v s) :
    ∃ b r, bs = b :: r ∧ v = signed b ∧ s = ⟨pos + 8, bytesToBits r⟩ := by
  cases bs with
  | nil => cases h
  | cons b r =>
    rw [bytesToBits_cons, Reads.signed8 b] at h
    injection h with h1 h2
    exact ⟨b, r, rfl, h1.symm, by rw [← h2, bitsOf_length]⟩

theorem uint16_stream_inv {bs : List UInt8} {v : Int} {s : St} {pos : Nat}
    (h : P.uint 16 ⟨pos, bytesToBits bs⟩ = .ok v s) :
    ∃ b c r, bs = b :: c :: r ∧ v = 256 * b.toNat + c.toNat ∧ s = ⟨pos + 16, bytesToBits r⟩ := by
  match bs, h with
  | [], h => cases h
  | [b], h =>
    exfalso
    unfold P.uint at h
    rw [P.bind_ok] at h
    obtain ⟨l, s1, h1, -⟩ := h
    rw [P.takeBits_ok] at h1
    have := congrArg List.length h1.2.1
    simp only [bytesToBits_length, List.length_append, h1.1] at this
    simp at this
    omega
  | b :: c :: r, h =>
    have hb := b.toNat_lt
    have hc := c.toNat_lt
    have h16 : bytesToBits (b :: c :: r) = bitsOf 16 (256 * b.toNat + c.toNat) ++ bytesToBits r := by
      rw [bytesToBits_cons, bytesToBits_cons, ← List.append_assoc,
        ← bitsOf_append 8 8 _ _ (by omega)]
      congr 2
      omega
    rw [h16, Reads.uint 16 _ (by omega)] at h
    injection h with h1 h2
    refine ⟨b, c, r, rfl, ?_, by rw [← h2, bitsOf_length]⟩
    rw [← h1]
    push_cast
    rfl

theorem signed_nonneg {b : UInt8} (h : 0 ≤ signed b) : b.toNat < 128 ∧ signed b = b.toNat := by
  have := b.toNat_lt
  by_cases hb : b.toNat < 128
  · exact ⟨hb, signed_lt hb⟩
  · rw [signed_ge hb] at h
    omega

/-- Everything a foreground frame is read from before its checksum. -/
def fgHead : P (Int × Int × ForegroundFrameControl × List Int × D7anp.Frame) := do
  let length ← P.sint 8
  let subnet ← P.sint 8
  let control ← ForegroundFrameControl.parse
  let target ← parseTarget control.idType
  let np ← D7anp.Frame.parse (length - overhead control.idType)
  return (length, subnet, control, target, np)

theorem fgHead_good : GoodA fgHead := by
  refine (GoodA.sint 8 rfl).bind fun _ => ?_
  refine (GoodA.sint 8 rfl).bind fun _ => ?_
  refine (GoodA.of ForegroundFrameControl.good ForegroundFrameControl.adv).bind fun _ => ?_
  refine (parseTarget_good _).bind fun _ => ?_
  refine (npFrame_good _).bind fun _ => ?_
  exact GoodA.pure _

theorem fg_inv {bs : List UInt8} {f : ForegroundFrame} {s' : St}
    (h : ForegroundFrame.parse (stream bs) = .ok f s') :
    (∃ b0 b1 r, bs = b0 :: b1 :: r ∧ b0.toNat < 128 ∧ b1.toNat < 128 ∧ f.length = b0.toNat ∧
      f.subnet = b1.toNat) ∧
    ∃ d c0 c1 r, bs = d ++ [c0, c1] ++ r ∧ s'.pos = 8 * (d.length + 2) ∧
      f.crc16 = 256 * c0.toNat + c1.toNat := by
  unfold ForegroundFrame.parse at h
  simp only [P.bind_ok, P.lift_ok] at h
  obtain ⟨l, s1, h1, sn, s2, h2, c, s3, h3, t, s4, h4, np, s5, h5, crc, s6, h6, hn, rfl⟩ := h
  have hhead : fgHead (stream bs) = .ok (l, sn, c, t, np) s5 := by
    unfold fgHead
    simp only [P.bind_ok, P.pure_ok]
    exact ⟨l, s1, h1, sn, s2, h2, c, s3, h3, t, s4, h4, np, s5, h5, rfl, rfl⟩
  obtain ⟨d, r, e1, e2, -⟩ := fgHead_good.ok_bytes hhead
  subst e2
  obtain ⟨c0, c1, r', e3, e4, e5⟩ := uint16_stream_inv h6
  unfold stream at h1
  obtain ⟨b0, r0, rfl, rfl, rfl⟩ := sint_stream_inv h1
  obtain ⟨b1, r1, rfl, rfl, rfl⟩ := sint_stream_inv h2
  unfold ForegroundFrame.new at hn
  rw [validate_eq_ok] at hn
  obtain ⟨⟨hl, hs, -⟩, rfl⟩ := hn
  obtain ⟨g1, g2⟩ := signed_nonneg hl.1
  obtain ⟨g3, g4⟩ := signed_nonneg hs.1
  refine ⟨⟨b0, b1, r1, rfl, g1, g3, g2, g4⟩, d, c0, c1, r', ?_, ?_, e4⟩
  · rw [e1, e3]; simp
  · rw [e5]; simp only; omega

/-- Everything a background frame is read from before its checksum. -/
def bgHead : P (Int × BackgroundFrameControl × Int) := do
  let subnet ← P.sint 8
  let control ← BackgroundFrameControl.parse
  let payload ← P.uint 16
  return (subnet, control, payload)

theorem bgHead_good : GoodA bgHead := by
  refine (GoodA.sint 8 rfl).bind fun _ => ?_
  refine (GoodA.of BackgroundFrameControl.good BackgroundFrameControl.adv).bind fun _ => ?_
  refine (GoodA.uint 16 rfl).bind fun _ => ?_
  exact GoodA.pure _

theorem bg_inv {bs : List UInt8} {f : BackgroundFrame} {s' : St}
    (h : BackgroundFrame.parse (stream bs) = .ok f s') :
    (∃ b0 r, bs = b0 :: r ∧ b0.toNat < 128 ∧ f.subnet = b0.toNat) ∧
    ∃ d c0 c1 r, bs = d ++ [c0, c1] ++ r ∧ s'.pos = 8 * (d.length + 2) ∧
      f.crc16 = 256 * c0.toNat + c1.toNat := by
  unfold BackgroundFrame.parse at h
  simp only [P.bind_ok, P.lift_ok] at h
  obtain ⟨sn, s1, h1, c, s2, h2, pl, s3, h3, crc, s6, h6, hn, rfl⟩ := h
  have hhead : bgHead (stream bs) = .ok (sn, c, pl) s3 := by
    unfold bgHead
    simp only [P.bind_ok, P.pure_ok]
    exact ⟨sn, s1, h1, c, s2, h2, pl, s3, h3, rfl, rfl⟩
  obtain ⟨d, r, e1, e2, -⟩ := bgHead_good.ok_bytes hhead
  subst e2
  obtain ⟨c0, c1, r', e3, e4, e5⟩ := uint16_stream_inv h6
  unfold stream at h1
  obtain ⟨b0, r0, rfl, rfl, rfl⟩ := sint_stream_inv h1
  unfold BackgroundFrame.new at hn
  rw [validate_eq_ok] at hn
  obtain ⟨⟨hs, -⟩, rfl⟩ := hn
  obtain ⟨g1, g2⟩ := signed_nonneg hs.1
  refine ⟨⟨b0, r0, rfl, g1, g2⟩, d, c0, c1, r', ?_, ?_, e4⟩
  · rw [e1, e3]; simp
  · rw [e5]; simp only; omega

/-! ### Frames with a length or subnet byte of 128 or more -/

theorem new_fails {L S : Int} {c : ForegroundFrameControl} {t : List Int} {np : D7anp.Frame} {k : Int}
    (h : ¬ (0 ≤ L ∧ 0 ≤ S)) : ForegroundFrame.new L S c t np k = .error .valueError := by
  unfold ForegroundFrame.new
  rw [validate_eq_error]
  refine ⟨fun h' => h ⟨h'.1.1, h'.2.1.1⟩, rfl⟩

theorem alp_nonpositive (n : Int) (hn : n ≤ 0) :
    Leads (AlpParser.parse n) (Pure.pure ⟨[], none, false, none, true, false, none⟩) [] := by
  refine ⟨rfl, fun pos rest _ => ?_⟩
  have h : AlpParser.parseActions n ⟨pos, rest⟩ = .ok [] ⟨pos, rest⟩ := by
    unfold AlpParser.parseActions
    split
    · unfold AlpParser.parseLoop
      rw [if_neg (by omega)]
      rfl
    · rfl
  unfold AlpParser.parse
  simp only [P.bind_apply, List.nil_append]
  rw [h]
  rfl

theorem frame_rejected (a : Air) (h : a.Valid) (cmd : Command) (hl : a.length < 256)
    (hbad : ¬ (a.length < 128 ∧ a.subnet.toNat < 128))
    (hc : AlpParser.parse a.alp.length (stream a.alp) = .ok cmd ⟨8 * a.alp.length, []⟩)
    (rest : List UInt8) :
    ∃ s, parseFrame .FOREGROUND (stream (a.bytes ++ rest)) = .err .valueError s := by
  have hsl := length_eq a
  have hof : (UInt8.ofNat a.length).toNat = a.length := toNat_ofNat_lt hl
  suffices hh : ∃ s, ForegroundFrame.parse (stream (a.bytes ++ rest)) = .err .valueError s by
    obtain ⟨s, hs⟩ := hh
    exact ⟨s, by unfold parseFrame; simp only [P.bind_apply, hs]⟩
  have hneg : ¬ (0 ≤ signed (UInt8.ofNat a.length) ∧ 0 ≤ signed a.subnet) := by
    rintro ⟨h1, h2⟩
    have h1 := (signed_nonneg h1).1
    have h2 := (signed_nonneg h2).1
    rw [hof] at h1
    exact hbad ⟨h1, h2⟩
  by_cases h128 : a.length < 128
  · have hL : signed (UInt8.ofNat a.length) = a.length := by
      rw [signed_lt (by rw [hof]; exact h128), hof]
    refine ⟨⟨8 * a.bytes.length, bytesToBits rest⟩, ?_⟩
    rw [frame_outcome a h cmd (by rw [hL, Int.sub_self, Int.zero_add]; exact alp_leads hc) rest,
      new_fails hneg]
    rfl
  · have hL : signed (UInt8.ofNat a.length) = (a.length : Int) - 256 := by
      rw [signed_ge (by rw [hof]; exact h128), hof]
    -- the checksum is read from the first two of these bytes
    obtain ⟨x, y, z, hxyz⟩ : ∃ x y z, a.alp ++ [a.crc.1, a.crc.2] ++ rest = x :: y :: z := by
      match a.alp with
      | [] => exact ⟨_, _, _, rfl⟩
      | [u] => exact ⟨_, _, _, rfl⟩
      | u :: v :: w => exact ⟨_, _, _, rfl⟩
    have hx := x.toNat_lt
    have hy := y.toNat_lt
    have key := (fg_leads a h (UInt8.ofNat a.length) (256 * x.toNat + y.toNat) (by omega)
      ⟨[], none, false, none, true, false, none⟩ [] (alp_nonpositive _ (by
        rw [hL, hsl]; push_cast; omega))).2 0 (bytesToBits z) rfl
    have hbits : bytesToBits (a.bytes ++ rest) = (bitsOf 8 (UInt8.ofNat a.length).toNat ++
        (a.dllBits ++ ((a.npBits ++ (a.tpBits ++ [])) ++ bitsOf 16 (256 * x.toNat + y.toNat)))) ++
        bytesToBits z := by
      have h16 : ∀ x y : UInt8, bitsOf 16 (256 * x.toNat + y.toNat) =
          bitsOf 8 x.toNat ++ bitsOf 8 y.toNat := by
        intro x y
        rw [← bitsOf_append 8 8 _ _ (by have := y.toNat_lt; omega)]
        congr 1
        omega
      have e := congrArg bytesToBits hxyz
      simp only [bytesToBits_append, bytesToBits_cons, bytesToBits_nil, List.append_nil,
        List.append_assoc] at e
      rw [bytesToBits_append, bytes_bits, body_bits, h16, h16]
      simp only [List.append_assoc, List.append_nil]
      rw [e]
    unfold stream
    rw [hbits, key, new_fails hneg]
    exact ⟨_, rfl⟩

end Verif.Dll
