import Verif.Spec.Loss
import Verif.Props.SerialFrames

/-! C93: lost frames and the error counter of the parser. -/

namespace Verif.Serial

open Verif

theorem countAll_jumps (cs : List UInt8) : ∀ p : Parser,
    (p.countAll (cs.map some)).errorCounter = p.errorCounter + jumps p.downCounter cs ∧
    (p.countAll (cs.map some)).downCounter = (cs.getLast?.map fun c => (c.toNat : Int)).getD p.downCounter := by
  induction cs with
  | nil => intro p; exact ⟨by simp [Parser.countAll, jumps], rfl⟩
  | cons c cs ih =>
    intro p
    obtain ⟨h1, h2⟩ := ih (p.count c.toNat)
    have hd : (p.count c.toNat).downCounter = c.toNat := count_down p c
    have he : (p.count c.toNat).errorCounter = p.errorCounter +
        (if (c.toNat : Int) = (if p.downCounter ≥ 255 then 0 else p.downCounter + 1) then 0 else 1) := by
      unfold Parser.count
      simp only
      have hw : (if p.downCounter + 1 > 255 then (0 : Int) else p.downCounter + 1) =
          if p.downCounter ≥ 255 then 0 else p.downCounter + 1 := by
        split <;> split <;> omega
      rw [hw]
      generalize (if p.downCounter ≥ 255 then (0 : Int) else p.downCounter + 1) = x
      split
      · simp [*]
      · next h => rw [if_pos (by omega)]; simp
    constructor
    · show ((p.count c.toNat).countAll (cs.map some)).errorCounter = _
      rw [h1, hd, he, jumps]
      push_cast
      split <;> omega
    · show ((p.count c.toNat).countAll (cs.map some)).downCounter = _
      rw [h2, hd]
      cases cs with
      | nil => rfl
      | cons d cs => simp [List.getLast?_cons_cons, List.getLast?_cons]

/-- C93: well-formed frames with any numbers, in any chunking, are all delivered; the error counter grows by the number of
frames whose number does not follow the one of the frame before, and the next number is then expected. -/
theorem C93_numbers (p : Parser) (hb : p.buffer = []) (fs : List Sent) (hfs : ∀ f ∈ fs, f.Valid p.skipAlpParsing)
    {chunks : List (List UInt8)} (hne : chunks ≠ []) (h : chunks.flatten = (fs.map Sent.bytes).flatten) :
    ∃ q, feed p chunks = .ok (q, fs.map Sent.delivered, []) ∧ q.buffer = [] ∧
      q.errorCounter = p.errorCounter + jumps p.downCounter (fs.map Sent.counter) ∧
      q.downCounter = ((fs.map Sent.counter).getLast?.map fun c => (c.toNat : Int)).getD p.downCounter := by
  obtain ⟨h1, h2⟩ := countAll_jumps (fs.map Sent.counter) p
  rw [List.map_map] at h1 h2
  exact ⟨_, feed_frames chunks p fs hfs hne (by rw [hb]; exact h), rfl, h1, h2⟩

/-- Numbers 1, 2, 5, 5, 6 after 0: two of them do not follow. -/
example : jumps 0 [1, 2, 5, 5, 6] = 2 ∧ jumps 254 [255, 0, 1] = 0 := by decide

theorem arrived_map {α β : Type} (f : α → β) : ∀ (ks : List Bool) (l : List α), arrived ks (l.map f) = (arrived ks l).map f
  | [], l => by cases l <;> rfl
  | true :: ks, [] => rfl
  | false :: ks, [] => rfl
  | true :: ks, a :: l => by simp [arrived, arrived_map f ks l]
  | false :: ks, a :: l => by simp [arrived, arrived_map f ks l]

theorem arrived_mem {α : Type} {a : α} : ∀ {ks : List Bool} {l : List α}, a ∈ arrived ks l → a ∈ l
  | [], l, h => by cases l <;> cases h
  | true :: ks, [], h => by cases h
  | false :: ks, [], h => by cases h
  | true :: ks, b :: l, h => by
    rcases List.mem_cons.1 h with rfl | h
    · simp
    · simp [arrived_mem h]
  | false :: ks, b :: l, h => by simp [arrived_mem (ks := ks) (l := l) h]

theorem arrived_forall {α β : Type} {R : α → β → Prop} {as : List α} {bs : List β} (h : List.Forall₂ R as bs) :
    ∀ ks : List Bool, List.Forall₂ R (arrived ks as) (arrived ks bs) := by
  induction h with
  | nil => intro ks; rcases ks with _ | ⟨_ | _, ks⟩ <;> exact .nil
  | cons h _ ih =>
    intro ks
    rcases ks with _ | ⟨_ | _, ks⟩
    · exact .nil
    · exact ih ks
    · exact .cons h (ih ks)

theorem chain_tail {α : Type} {R : α → α → Prop} {a : α} {l : List α} (h : (a :: l).IsChain R) : l.IsChain R := by
  cases l with
  | nil => simp
  | cons b l => exact (List.isChain_cons_cons.1 h).2

theorem forall_length {α β : Type} {R : α → β → Prop} {as : List α} {bs : List β} (h : List.Forall₂ R as bs) :
    as.length = bs.length := by
  induction h with
  | nil => rfl
  | cons _ _ ih => simp [ih]

/-- Numbers in order, some of which are left out. -/
theorem jumps_arrived : ∀ (ks : List Bool) (cs : List UInt8), ks.length = cs.length →
    cs.IsChain (fun a b => b = a + 1) → ∀ (down : Int) (n : Nat), 0 ≤ down → down ≤ 255 →
    (∀ c ∈ cs.head?, (c.toNat : Int) = (down + 1 + n) % 256) →
    jumps down (arrived ks cs) = (lostBefore n ks).countP (fun m => m % 256 ≠ 0)
  | [], cs, _, _, down, n, _, _, _ => by cases cs <;> rfl
  | k :: ks, [], h, _, _, _, _, _, _ => by simp at h
  | true :: ks, c :: cs, h, hc, down, n, h0, h1, hh => by
    have hcn := hh c (by simp)
    have hlt := c.toNat_lt
    have ih := jumps_arrived ks cs (by simpa using h) (chain_tail hc) c.toNat 0 (by omega) (by omega) (by
      intro d hd
      cases cs with
      | nil => cases hd
      | cons e cs =>
        rw [List.isChain_cons_cons] at hc
        cases hd
        rw [hc.1, UInt8.toNat_add]
        push_cast
        simp)
    simp only [arrived, jumps, lostBefore, List.countP_cons, ih]
    have : ((c.toNat : Int) = if down ≥ 255 then 0 else down + 1) ↔ n % 256 = 0 := by
      rw [hcn]
      split <;> omega
    by_cases hz : n % 256 = 0
    · rw [if_pos (this.2 hz), if_neg (by simp [hz])]; omega
    · rw [if_neg (mt this.1 hz), if_pos (by simpa using hz)]; omega
  | false :: ks, c :: cs, h, hc, down, n, h0, h1, hh => by
    have hcn := hh c (by simp)
    have hlt := c.toNat_lt
    simp only [arrived, lostBefore]
    exact jumps_arrived ks cs (by simpa using h) (chain_tail hc) down (n + 1) h0 h1 (by
      intro d hd
      cases cs with
      | nil => cases hd
      | cons e cs =>
        rw [List.isChain_cons_cons] at hc
        cases hd
        rw [hc.1, UInt8.toNat_add]
        push_cast
        rw [hcn]
        simp
        omega)

/-- C93: a sender and a receiver that are in step, with a line that loses frames. The commands whose frames arrive are
delivered, in order and without an error, and the error counter of the receiver grows by the number of frames that arrive
just after a loss of a number of frames that is not a multiple of 256. -/
theorem C93_lost (b r : Parser) (hb : 0 ≤ b.upCounter ∧ b.upCounter ≤ 255) (hd : 0 ≤ r.downCounter ∧ r.downCounter ≤ 255)
    (hr : r.buffer = []) (hs : r.skipAlpParsing = false) (hstep : InStep b r) (cs : List Command)
    (hcs : ∀ c ∈ cs, Transmittable c) (kept : List Bool) (hk : kept.length = cs.length) :
    ∃ b' frames, buildAll b (cs.map Command.iter) = .ok (b', frames) ∧
      ∀ chunks : List (List UInt8), chunks ≠ [] → chunks.flatten = (arrived kept frames).flatten →
        ∃ q ds, feed r chunks = .ok (q, ds.map (fun d => (1, .command d)), []) ∧ q.buffer = [] ∧
          List.Forall₂ ArrivesAs (arrived kept cs) ds ∧
          q.errorCounter = r.errorCounter + (lostBefore 0 kept).countP (fun n => n % 256 ≠ 0) := by
  obtain ⟨b', fs, h1, h2, h3, h4, h5⟩ := buildAll_frames cs b hb hcs
  refine ⟨b', fs.map Sent.bytes, h1, fun chunks hne hfl => ?_⟩
  rw [arrived_map] at hfl
  have hv : ∀ f ∈ arrived kept fs, f.Valid false ∧ f.type = 1 := fun f hf => h2 f (arrived_mem hf)
  obtain ⟨q, e1, e2, e3, -⟩ := C93_numbers r hr (arrived kept fs) (by rw [hs]; exact fun f hf => (hv f hf).1) hne hfl
  have hlen : fs.length = cs.length := (forall_length h3).symm
  rw [← arrived_map, jumps_arrived kept (fs.map Sent.counter) (by simp [hk, hlen]) h4 r.downCounter 0 hd.1 hd.2 (by
    intro c hc
    rw [List.head?_map, Option.mem_def, Option.map_eq_some_iff] at hc
    obtain ⟨f, hf, rfl⟩ := hc
    rw [h5 f hf, hstep]
    simp only [UInt8.toNat_ofNat']
    split <;> omega)] at e3
  have hds : ∀ (cs : List Command) (fs : List Sent), (∀ f ∈ fs, f.Valid false ∧ f.type = 1) →
      List.Forall₂ (fun c f => ∃ d, f.msg = .command d ∧ ArrivesAs c d) cs fs →
      ∃ ds : List Command, fs.map Sent.delivered = ds.map (fun d => (1, .command d)) ∧
        List.Forall₂ ArrivesAs cs ds := by
    intro cs fs hv h
    induction h with
    | nil => exact ⟨[], rfl, .nil⟩
    | @cons c f cs fs hd _ ih =>
      obtain ⟨d, e1, e2⟩ := hd
      obtain ⟨ds, i1, i2⟩ := ih (fun g hg => hv g (by simp [hg]))
      refine ⟨d :: ds, ?_, .cons e2 i2⟩
      have ht := (hv f (by simp)).2
      simp only [List.map_cons, i1, Sent.delivered, ht, e1]
      rfl
  obtain ⟨ds, i1, i2⟩ := hds _ _ hv (arrived_forall h3 kept)
  exact ⟨q, ds, by rw [e1, i1], e2, i2, e3⟩

/-- The second of three frames is lost: two commands are delivered and the error counter is 1. -/
example : ∃ b' frames, buildAll (Parser.new false) ([sampleCommand, sampleCommand, sampleCommand].map Command.iter) =
    .ok (b', frames) ∧ ∃ q ds, feed ⟨[], false, 0, 255, 0⟩ [(arrived [true, false, true] frames).flatten] =
      .ok (q, ds.map (fun d => (1, .command d)), []) ∧ q.buffer = [] ∧
      List.Forall₂ ArrivesAs [sampleCommand, sampleCommand] ds ∧ q.errorCounter = 0 + (1 : Nat) := by
  obtain ⟨b', fs, h1, h2⟩ := C93_lost (Parser.new false) ⟨[], false, 0, 255, 0⟩ (by decide) (by decide) rfl rfl
    (by unfold InStep; decide) [sampleCommand, sampleCommand, sampleCommand] (by simpa using sampleCommand_transmittable)
    [true, false, true] rfl
  exact ⟨b', fs, h1, h2 [(arrived [true, false, true] fs).flatten] (by simp) (by simp)⟩

theorem lostBefore_zero : ∀ (ks : List Bool) (n : Nat), (∀ m ∈ lostBefore n ks, m = 0) → 0 < n →
    ks = List.replicate ks.length false
  | [], _, _, _ => rfl
  | true :: ks, n, h, hn => absurd (h n (by simp [lostBefore])) (by omega)
  | false :: ks, n, h, hn => by
    rw [List.length_cons, List.replicate_succ, ← lostBefore_zero ks (n + 1) h (by omega)]

theorem lostBefore_kept : ∀ (ks : List Bool), (∀ m ∈ lostBefore 0 ks, m = 0) ↔
    ∃ a, ks = List.replicate a true ++ List.replicate (ks.length - a) false
  | [] => ⟨fun _ => ⟨0, rfl⟩, fun _ m hm => by cases hm⟩
  | true :: ks => by
    constructor
    · intro h
      obtain ⟨a, ha⟩ := (lostBefore_kept ks).1 fun m hm => h m (by simp [lostBefore, hm])
      refine ⟨a + 1, ?_⟩
      rw [List.length_cons, Nat.add_sub_add_right, List.replicate_succ, List.cons_append, ← ha]
    · rintro ⟨a, ha⟩ m hm
      simp only [lostBefore, List.mem_cons] at hm
      rcases hm with rfl | hm
      · rfl
      cases a with
      | zero =>
        exfalso
        rw [List.replicate_zero, List.nil_append, List.length_cons, Nat.sub_zero, List.replicate_succ] at ha
        simp at ha
      | succ a =>
        rw [List.length_cons, Nat.add_sub_add_right, List.replicate_succ, List.cons_append] at ha
        exact (lostBefore_kept ks).2 ⟨a, by injection ha⟩ m hm
  | false :: ks => by
    constructor
    · intro h
      refine ⟨0, ?_⟩
      have := lostBefore_zero ks 1 h (by omega)
      simp only [List.replicate_zero, List.nil_append, List.length_cons, Nat.sub_zero, List.replicate_succ, ← this]
    · rintro ⟨a, ha⟩
      have : ∀ k n, lostBefore n (List.replicate k false) = [] := by
        intro k
        induction k with
        | zero => intro n; rfl
        | succ k ih => intro n; exact ih _
      cases a with
      | zero =>
        rw [ha, List.replicate_zero, List.nil_append, this]
        simp
      | succ a => rw [List.replicate_succ] at ha; simp at ha

theorem lostBefore_le : ∀ (ks : List Bool) (n m : Nat), m ∈ lostBefore n ks → m ≤ n + ks.count false
  | [], _, _, h => by cases h
  | true :: ks, n, m, h => by
    simp only [lostBefore, List.mem_cons] at h
    rw [List.count_cons_of_ne (by decide)]
    rcases h with rfl | h
    · omega
    · have := lostBefore_le ks 0 m h; omega
  | false :: ks, n, m, h => by
    have := lostBefore_le ks (n + 1) m h
    rw [List.count_cons_self]
    omega

theorem lost_detects {kept : List Bool} (h : kept.count false < 256) :
    ((lostBefore 0 kept).countP (fun n => n % 256 ≠ 0) = 0 ↔
      ∃ a, kept = List.replicate a true ++ List.replicate (kept.length - a) false) ∧
    (lostBefore 0 kept).countP (fun n => n % 256 ≠ 0) ≤ kept.count false := by
  constructor
  · rw [← lostBefore_kept, List.countP_eq_zero]
    constructor
    · intro h' m hm
      have h1 := h' m hm
      have h2 := lostBefore_le kept 0 m hm
      simp at h1
      omega
    · intro h' m hm
      simp [h' m hm]
  · have : ∀ (ks : List Bool) (n : Nat),
        (lostBefore n ks).countP (fun n => n % 256 ≠ 0) ≤ (if n = 0 then 0 else 1) + ks.count false := by
      intro ks
      induction ks with
      | nil => intro n; simp [lostBefore]
      | cons k ks ih =>
        intro n
        cases k with
        | true =>
          have := ih 0
          simp only [lostBefore, List.countP_cons]
          rw [List.count_cons_of_ne (by decide)]
          by_cases hn : n = 0
          · subst hn; simpa using this
          · rw [if_neg hn]
            simp only [if_true] at this
            split <;> omega
        | false =>
          have := ih (n + 1)
          simp only [lostBefore]
          rw [List.count_cons_self]
          rw [if_neg (by omega)] at this
          omega
    simpa using this kept 0

/-- C93: if fewer than 256 frames are lost, the error counter shows it: it is unchanged exactly if the frames that arrive are
the first ones, so that only frames at the end are lost; and it never grows by more than the number of lost frames. -/
theorem C93_detects (b r : Parser) (hb : 0 ≤ b.upCounter ∧ b.upCounter ≤ 255)
    (hd : 0 ≤ r.downCounter ∧ r.downCounter ≤ 255) (hr : r.buffer = []) (hs : r.skipAlpParsing = false) (hstep : InStep b r)
    (cs : List Command) (hcs : ∀ c ∈ cs, Transmittable c) (kept : List Bool) (hk : kept.length = cs.length)
    (hfew : kept.count false < 256) :
    ∃ b' frames, buildAll b (cs.map Command.iter) = .ok (b', frames) ∧
      ∀ chunks : List (List UInt8), chunks ≠ [] → chunks.flatten = (arrived kept frames).flatten →
        ∃ q ms, feed r chunks = .ok (q, ms, []) ∧
          (q.errorCounter = r.errorCounter ↔ ∃ a, kept = List.replicate a true ++ List.replicate (kept.length - a) false) ∧
          q.errorCounter ≤ r.errorCounter + kept.count false := by
  obtain ⟨b', fs, h1, h2⟩ := C93_lost b r hb hd hr hs hstep cs hcs kept hk
  refine ⟨b', fs, h1, fun chunks hne hfl => ?_⟩
  obtain ⟨q, ds, h3, -, -, h4⟩ := h2 chunks hne hfl
  obtain ⟨k1, k2⟩ := lost_detects hfew
  refine ⟨q, _, h3, ?_, by rw [h4]; omega⟩
  rw [← k1, h4]
  omega

/-- Losing the second of three frames shows, losing the last two does not. -/
example : (lostBefore 0 [true, false, true]).countP (fun n => n % 256 ≠ 0) = 1 ∧
    (lostBefore 0 [true, false, false]).countP (fun n => n % 256 ≠ 0) = 0 := by decide

/-- C93 is false of a loss of 256 frames in a row: it leaves no trace. -/
theorem C93_wraps_refuted : (lostBefore 0 (true :: (List.replicate 256 false ++ [true]))).countP (fun n => n % 256 ≠ 0) = 0 := by
  decide +kernel

/-- C93 is false of damaged frames: the number of a frame with a wrong checksum counts, so the error counter stays as it is,
while its message is lost. The damage is in the list of errors. -/
theorem C93_damaged_refuted :
    (let r := (⟨[], true, 0, 255, 0⟩ : Parser).parse (frame 0 1 [7] ++ [0xC0, 0, 1, 1, 1, 0, 0, 8] ++ frame 2 1 [9])
     (r.1.errorCounter, r.2.map fun o => (o.cmds, o.errors.length))) =
      (0, .ok ([(1, .bytes [7]), (1, .bytes [9])], 1)) := by decide +kernel

end Verif.Serial
