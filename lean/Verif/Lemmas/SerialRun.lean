import Verif.Lemmas.SerialTrace
import Verif.Spec.Serial

/-! Runs over concatenated buffers, noise and frames. -/

namespace Verif.Serial

open Verif

theorem skip_cons (y : UInt8) (ys : List UInt8) :
    (skipBadBufferContent (y :: ys)).1 = fromSync ys ∧
    (skipBadBufferContent (y :: ys)).2 = ys.length + 1 - (fromSync ys).length := by
  have := fromSync_length ys
  unfold skipBadBufferContent
  simp only
  split
  · next h => simp [h]
  · exact ⟨rfl, by omega⟩

theorem fromSync_append (a x : List UInt8) :
    fromSync (a ++ x) = if fromSync a = [] then fromSync x else fromSync a ++ x := by
  induction a with
  | nil => simp [fromSync]
  | cons y ys ih =>
    simp only [List.cons_append, fromSync]
    by_cases hy : y = 0xC0
    · simp [hy]
    · simp only [hy, if_false, ih]

theorem fromSync_sync (a : List UInt8) : fromSync (0xC0 :: a) = 0xC0 :: a := by simp [fromSync]

theorem fromSync_none {a : List UInt8} (h : 0xC0 ∉ a) : fromSync a = [] := by
  induction a with
  | nil => rfl
  | cons y ys ih =>
    simp only [List.mem_cons, not_or] at h
    simp only [fromSync]
    rw [if_neg (fun e => h.1 e.symm), ih h.2]

theorem fromSync_head (a : List UInt8) : fromSync a = [] ∨ ∃ r, fromSync a = 0xC0 :: r := by
  induction a with
  | nil => exact .inl rfl
  | cons y ys ih =>
    simp only [fromSync]
    by_cases hy : y = 0xC0
    · simp only [hy, if_true]; exact .inr ⟨_, rfl⟩
    · simp only [hy, if_false]; exact ih

theorem fromSync_suffix (a : List UInt8) : ∃ g, a = g ++ fromSync a := by
  induction a with
  | nil => exact ⟨[], rfl⟩
  | cons y ys ih =>
    simp only [fromSync]
    by_cases hy : y = 0xC0
    · simp only [hy, if_true]; exact ⟨[], rfl⟩
    · simp only [hy, if_false]
      obtain ⟨g, hg⟩ := ih
      exact ⟨y :: g, by rw [List.cons_append, ← hg]⟩

theorem front_nosync (skip : Bool) {y : UInt8} (ys : List UInt8) (hy : y ≠ 0xC0) :
    front skip (y :: ys) = .bad .parseError 8 := by
  have : view (y :: ys) = .nosync 8 := by simp [view, hy]
  unfold front
  rw [this]

/-- Two runs with the same deliveries and the same final state of the buffer. -/
def Trace.Same (a b : Trace) : Prop :=
  Ev.msgs a.evs = Ev.msgs b.evs ∧ Ev.taken a.evs = Ev.taken b.evs ∧ a.rest = b.rest ∧
  a.escaped = b.escaped

/-- Bytes before the first sync byte do not matter. -/
theorem trace_fromSync (skip : Bool) (x : List UInt8) :
    (trace skip x).Same (trace skip (fromSync x)) := by
  cases x with
  | nil => exact ⟨rfl, rfl, rfl, rfl⟩
  | cons y ys =>
    by_cases hy : y = 0xC0
    · rw [hy, fromSync_sync]; exact ⟨rfl, rfl, rfl, rfl⟩
    · rw [trace_bad (by simp) (front_nosync skip ys hy), (skip_cons y ys).1]
      simp only [fromSync, hy, if_false]
      exact ⟨rfl, rfl, rfl, rfl⟩

/-- More bytes after a run. -/
theorem trace_append (skip : Bool) (n : Nat) : ∀ (b x : List UInt8), b.length = n →
    if (trace skip b).escaped then
      Ev.msgs (trace skip (b ++ x)).evs = Ev.msgs (trace skip b).evs ∧
      (trace skip (b ++ x)).rest = (trace skip b).rest ++ x ∧ (trace skip (b ++ x)).escaped = true
    else
      Ev.msgs (trace skip (b ++ x)).evs =
        Ev.msgs (trace skip b).evs ++ Ev.msgs (trace skip ((trace skip b).rest ++ x)).evs ∧
      Ev.taken (trace skip (b ++ x)).evs =
        Ev.taken (trace skip b).evs + Ev.taken (trace skip ((trace skip b).rest ++ x)).evs ∧
      (trace skip (b ++ x)).rest = (trace skip ((trace skip b).rest ++ x)).rest ∧
      (trace skip (b ++ x)).escaped = (trace skip ((trace skip b).rest ++ x)).escaped := by
  induction n using Nat.strong_induction_on with
  | _ n ih =>
    intro b x hn
    by_cases hb : b = []
    · subst hb
      simp [trace_nil, Ev.msgs, Ev.taken]
    · have hbx : b ++ x ≠ [] := by simp [hb]
      have hap := front_append skip b x
      cases hf : front skip b with
      | need =>
        simp [trace_need hb hf, Ev.msgs, Ev.taken]
      | escape =>
        rw [hf] at hap
        simp [trace_escape hb hf, trace_escape hbx hap, Ev.msgs]
      | bad e pos =>
        rw [hf] at hap
        obtain ⟨hap, -⟩ := hap
        rw [trace_bad hb hf, trace_bad hbx hap]
        simp only [Ev.msgs, Ev.taken]
        obtain ⟨y, ys, rfl⟩ := List.exists_cons_of_ne_nil hb
        simp only [List.cons_append, (skip_cons y _).1]
        rw [fromSync_append]
        by_cases hs : fromSync ys = []
        · rw [if_pos hs, hs]
          simp only [trace_nil, Bool.false_eq_true, if_false, List.nil_append, Ev.msgs, Ev.taken,
            Nat.zero_add]
          obtain ⟨h1, h2, h3, h4⟩ := trace_fromSync skip x
          exact ⟨h1.symm, h2.symm, h3.symm, h4.symm⟩
        · rw [if_neg hs]
          have := fromSync_length ys
          simp only [List.length_cons] at hn
          exact ih (fromSync ys).length (by omega) (fromSync ys) x rfl
      | got t m k =>
        rw [hf] at hap
        obtain ⟨h7, hk⟩ := front_got hf
        rw [trace_got hf, trace_got hap]
        simp only [Ev.msgs, Ev.taken]
        rw [List.drop_append_of_le_length hk]
        have := ih (b.drop k).length (by simp only [List.length_drop]; omega) (b.drop k) x rfl
        split
        · next h =>
          rw [if_pos h] at this
          exact ⟨by rw [this.1], this.2⟩
        · next h =>
          rw [if_neg h] at this
          exact ⟨by rw [this.1, List.cons_append], by rw [this.2.1]; omega, this.2.2⟩

/-- The remainder of a run is stable: running over it again changes nothing. -/
theorem trace_rest (skip : Bool) (b : List UInt8) (h : (trace skip b).escaped = false) :
    Ev.msgs (trace skip (trace skip b).rest).evs = [] ∧
    (trace skip (trace skip b).rest).rest = (trace skip b).rest ∧
    (trace skip (trace skip b).rest).escaped = false := by
  have := trace_append skip _ b [] rfl
  simp only [List.append_nil, h, Bool.false_eq_true, if_false] at this
  refine ⟨?_, this.2.2.1.symm, this.2.2.2.symm⟩
  have h1 := congrArg List.length this.1
  simp only [List.length_append] at h1
  exact List.eq_nil_of_length_eq_zero (by omega)

theorem front_frame {skip : Bool} {c t : UInt8} {pl : List UInt8} {m : Msg}
    (hm : Carries skip t pl m) (hl : pl.length ≤ 255) (x : List UInt8) :
    front skip (frame c t pl ++ x) = .got t.toNat m (7 + pl.length) ∧
    counted (frame c t pl ++ x) = some c := by
  have hv : view (frame c t pl ++ x) = .valid c t pl.length (pl ++ x) := by
    rw [view_valid]
    refine ⟨by omega, by simp, ?_⟩
    simp [frame]
  unfold front counted
  rw [hv]
  refine ⟨?_, rfl⟩
  have hb : body skip pl.length t.toNat ⟨56, bytesToBits (pl ++ x)⟩ =
      .ok m ⟨8 * (7 + pl.length), bytesToBits x⟩ := by
    have hbytes : P.bytes pl.length ⟨56, bytesToBits (pl ++ x)⟩ =
        .ok pl ⟨8 * (7 + pl.length), bytesToBits x⟩ := by
      rw [bytes_take _ _ _ (by simp), List.take_left, List.drop_left]
      congr 2
      omega
    have h4 : ∀ t : UInt8, t ≠ 4 → ¬ ((t.toNat : Int) = 4) := fun t h e =>
      h ((u8_eq_iff t 4 (by omega)).1 e)
    have h5 : ∀ t : UInt8, t ≠ 5 → ¬ ((t.toNat : Int) = 5) := fun t h e =>
      h ((u8_eq_iff t 5 (by omega)).1 e)
    unfold body
    cases hm with
    | rebooted r =>
      rw [if_pos (by decide), P.bind_apply, List.singleton_append, uint8_cons]
      rfl
    | logging =>
      rw [if_neg (by decide), if_pos (by decide), P.bind_apply, hbytes]
      rfl
    | raw _ _ hs h4' h5' =>
      rw [if_neg (h5 _ h5'), if_neg (h4 _ h4'), if_pos hs, P.bind_apply, hbytes]
      rfl
    | alp _ _ cmd hs h4' h5' hp =>
      rw [if_neg (h5 _ h5'), if_neg (h4 _ h4'), hs, if_neg (by simp), P.bind_apply]
      have hsp := AlpParser.parse_spec pl.length (stream pl) rfl
      rw [hp] at hsp
      obtain ⟨d, e1, e2, e3, -, e5⟩ := hsp
      simp only [stream, List.append_nil] at e1
      subst e1
      rw [bytesToBits_append, e5 56 _ (by norm_num), bytesToBits_length]
      have : 56 + 8 * pl.length = 8 * (7 + pl.length) := by omega
      rw [this]
      rfl
  simp only [hb]
  congr 1
  omega

theorem trace_frame {skip : Bool} {c t : UInt8} {pl : List UInt8} {m : Msg}
    (hm : Carries skip t pl m) (hl : pl.length ≤ 255) (x : List UInt8) :
    trace skip (frame c t pl ++ x) =
      ⟨.msg t.toNat m (7 + pl.length) :: (trace skip x).evs, some c :: (trace skip x).counts,
        (trace skip x).rest, (trace skip x).escaped⟩ := by
  obtain ⟨h1, h2⟩ := front_frame (c := c) hm hl x
  have hlen : (frame c t pl).length = 7 + pl.length := by simp [frame]; omega
  rw [trace_got h1, h2, ← hlen, List.drop_left]

theorem feed_trace (chunks : List (List UInt8)) (p : Parser) (hne : chunks ≠ []) :
    if (trace p.skipAlpParsing (p.buffer ++ chunks.flatten)).escaped then
      feed p chunks = .error .indexError
    else ∃ q es, feed p chunks =
        .ok (q, Ev.msgs (trace p.skipAlpParsing (p.buffer ++ chunks.flatten)).evs, es) ∧
      q.buffer = (trace p.skipAlpParsing (p.buffer ++ chunks.flatten)).rest ∧
      q.skipAlpParsing = p.skipAlpParsing ∧ q.upCounter = p.upCounter := by
  induction chunks generalizing p with
  | nil => exact absurd rfl hne
  | cons c cs ih =>
    have hp := parse_trace p c
    have hsk := countAll_skip p (trace p.skipAlpParsing (p.buffer ++ c)).counts
    have hap := trace_append p.skipAlpParsing _ (p.buffer ++ c) cs.flatten rfl
    rw [List.append_assoc] at hap
    simp only [List.flatten_cons]
    cases hesc : (trace p.skipAlpParsing (p.buffer ++ c)).escaped with
    | true =>
      rw [hesc, if_pos rfl] at hap
      rw [if_pos hap.2.2]
      simp only [feed, hp, finish, hesc, if_true]
    | false =>
      rw [hesc, if_neg (by simp)] at hap
      set q : Parser := { p.countAll (trace p.skipAlpParsing (p.buffer ++ c)).counts with
        buffer := (trace p.skipAlpParsing (p.buffer ++ c)).rest } with hq
      have hqs : q.skipAlpParsing = p.skipAlpParsing := hsk.1
      have hqu : q.upCounter = p.upCounter := hsk.2.2
      have hqb : q.buffer = (trace p.skipAlpParsing (p.buffer ++ c)).rest := rfl
      simp only [feed, hp, finish, hesc, Bool.false_eq_true, if_false, List.nil_append]
      by_cases hcs : cs = []
      · subst hcs
        simp only [List.flatten_nil, List.append_nil] at hap ⊢
        rw [hesc, if_neg (by simp)]
        exact ⟨q, Ev.errs (trace p.skipAlpParsing (p.buffer ++ c)).evs, by simp [feed, hq], rfl, hqs,
          hqu⟩
      · have := ih q hcs
        rw [hqs, hqb] at this
        rw [hap.2.2.2]
        split
        · next h =>
          rw [if_pos h] at this
          rw [this]
        · next h =>
          rw [if_neg h] at this
          obtain ⟨r, es, h1, h2, h3, h4⟩ := this
          rw [h1]
          refine ⟨r, Ev.errs (trace p.skipAlpParsing (p.buffer ++ c)).evs ++ es, ?_, ?_, ?_, ?_⟩
          · simp only [hap.1]
          · rw [h2, hap.2.2.1]
          · rw [h3]
          · rw [h4, hqu]

/-- An incomplete frame is neither rejected nor counted. -/
theorem view_prefix {c t : UInt8} {pl b x : List UInt8} (hl : pl.length ≤ 255)
    (h : b ++ x = frame c t pl) (hx : x ≠ []) : view b = .short := by
  have hv : view (b ++ x) = .valid c t pl.length pl := by
    rw [h, view_valid]
    exact ⟨by omega, le_refl _, by simp [frame]⟩
  have ha := view_append b x
  cases hb : view b with
  | short => rfl
  | nosync pos => rw [hb, hv] at ha; simp at ha
  | crcBad c' => rw [hb, hv] at ha; simp at ha
  | valid c' t' l rest =>
    obtain ⟨-, h2, -⟩ := view_valid.1 hb
    rw [hb, hv] at ha
    simp only [View.valid.injEq] at ha
    obtain ⟨-, -, h3, h4⟩ := ha
    have := congrArg List.length h4
    rw [List.length_append] at this
    exact absurd (List.eq_nil_of_length_eq_zero (by omega)) hx

theorem trace_prefix {skip : Bool} (fs : List Sent) (hfs : ∀ f ∈ fs, f.Valid skip)
    (b x : List UInt8) (h : b ++ x = (fs.map Sent.bytes).flatten) :
    ∃ f1 f2, fs = f1 ++ f2 ∧
      (trace skip b).evs = f1.map (fun f => .msg f.type.toNat f.msg (7 + f.payload.length)) ∧
      (trace skip b).counts.filterMap id = f1.map Sent.counter ∧
      (trace skip b).rest ++ x = (f2.map Sent.bytes).flatten ∧ (trace skip b).escaped = false ∧
      (x = [] → f2 = []) := by
  induction fs generalizing b with
  | nil =>
    simp only [List.map_nil, List.flatten_nil, List.append_eq_nil_iff] at h
    obtain ⟨rfl, rfl⟩ := h
    exact ⟨[], [], rfl, by simp [trace_nil], by simp [trace_nil], by simp [trace_nil],
      by simp [trace_nil], fun _ => rfl⟩
  | cons f fs ih =>
    obtain ⟨hl, hm⟩ := hfs f (by simp)
    simp only [List.map_cons, List.flatten_cons] at h
    rcases Nat.lt_or_ge b.length f.bytes.length with hlt | hge
    · obtain ⟨y, hy⟩ : ∃ y, b ++ y = f.bytes := by
        have : b <+: f.bytes := by
          refine List.prefix_of_prefix_length_le ⟨x, h⟩ ⟨_, rfl⟩ (by omega)
        exact this
      have hne : y ≠ [] := by
        rintro rfl
        rw [List.append_nil] at hy
        rw [hy] at hlt
        omega
      have hxne : x ≠ [] := by
        rintro rfl
        have := congrArg List.length h
        rw [List.append_nil, List.length_append] at this
        omega
      have hv := view_prefix hl hy hne
      refine ⟨[], f :: fs, rfl, ?_⟩
      by_cases hb : b = []
      · subst hb
        exact ⟨by simp [trace_nil], by simp [trace_nil], by simpa [trace_nil] using h,
          by simp [trace_nil], fun e => absurd e hxne⟩
      · have hf : front skip b = .need := by unfold front; rw [hv]
        have hc : counted b = none := by unfold counted; rw [hv]
        rw [trace_need hb hf, hc]
        exact ⟨rfl, rfl, h, rfl, fun e => absurd e hxne⟩
    · obtain ⟨b', hb'⟩ : ∃ b', f.bytes ++ b' = b := by
        have : f.bytes <+: b := by
          refine List.prefix_of_prefix_length_le ⟨_, rfl⟩ ⟨x, h⟩ (by omega)
        exact this
      subst hb'
      rw [List.append_assoc] at h
      have h := List.append_cancel_left h
      obtain ⟨f1, f2, h1, h2, h3, h4, h5, h6⟩ := ih (fun g hg => hfs g (by simp [hg])) b' h
      refine ⟨f :: f1, f2, by rw [h1]; rfl, ?_⟩
      unfold Sent.bytes
      rw [trace_frame hm hl]
      refine ⟨by simp [h2], ?_, h4, h5, h6⟩
      simp only [List.map_cons, ← h3]
      rfl

theorem countAll_filter (p : Parser) (l : List (Option UInt8)) :
    p.countAll l = p.countAll ((l.filterMap id).map some) := by
  induction l generalizing p with
  | nil => rfl
  | cons c l ih =>
    cases c with
    | none => exact ih p
    | some c => exact ih (p.count c.toNat)

theorem countAll_append (p : Parser) (l m : List (Option UInt8)) :
    p.countAll (l ++ m) = (p.countAll l).countAll m := by
  simp [Parser.countAll]

theorem msgs_sent (l : List Sent) :
    Ev.msgs (l.map (fun f => .msg f.type.toNat f.msg (7 + f.payload.length))) =
      l.map Sent.delivered ∧
    Ev.errs (l.map (fun f => .msg f.type.toNat f.msg (7 + f.payload.length))) = [] := by
  induction l with
  | nil => exact ⟨rfl, rfl⟩
  | cons f l ih =>
    exact ⟨by simp only [List.map_cons, Ev.msgs, ih.1]; rfl,
      by simp only [List.map_cons, Ev.errs, ih.2]⟩

/-- Valid frames in arbitrary pieces. -/
theorem feed_frames (chunks : List (List UInt8)) : ∀ (p : Parser) (fs : List Sent),
    (∀ f ∈ fs, f.Valid p.skipAlpParsing) → chunks ≠ [] →
    p.buffer ++ chunks.flatten = (fs.map Sent.bytes).flatten →
    feed p chunks = .ok ({ p.countAll (fs.map (fun f => some f.counter)) with buffer := [] },
      fs.map Sent.delivered, []) := by
  induction chunks with
  | nil => intro p fs _ h; exact absurd rfl h
  | cons c cs ih =>
    intro p fs hfs _ h
    rw [List.flatten_cons, ← List.append_assoc] at h
    obtain ⟨f1, f2, h1, h2, h3, h4, h5, h6⟩ := trace_prefix fs hfs _ _ h
    have hp := parse_trace p c
    unfold finish at hp
    rw [h5, h2, (msgs_sent f1).1, (msgs_sent f1).2, countAll_filter, h3, List.map_map] at hp
    simp only [Bool.false_eq_true, if_false, List.nil_append] at hp
    have hsk := countAll_skip p (f1.map (some ∘ Sent.counter))
    simp only [feed, hp]
    have hcomp : f1.map (some ∘ Sent.counter) = f1.map (fun f => some f.counter) := rfl
    rw [hcomp] at hsk ⊢
    by_cases hcs : cs = []
    · subst hcs
      have hf2 := h6 rfl
      subst hf2
      simp only [List.flatten_nil, List.map_nil, List.append_nil] at h4 h1
      subst h1
      simp only [feed, List.append_nil, h4]
    · have hv : ∀ f ∈ f2, f.Valid p.skipAlpParsing := fun f hf => hfs f (by rw [h1]; simp [hf])
      have := ih { p.countAll (f1.map (fun f => some f.counter)) with
        buffer := (trace p.skipAlpParsing (p.buffer ++ c)).rest } f2
        (by simp only [hsk.1]; exact hv) hcs h4
      rw [this, h1]
      simp only [countAll_with, List.map_append, countAll_append, List.append_nil]

end Verif.Serial
