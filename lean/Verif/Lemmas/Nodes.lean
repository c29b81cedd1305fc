import Verif.Spec.Nodes
import Verif.Lemmas.DeviceBytes
import Verif.Lemmas.Layout
import Verif.Props.Codecs

/-! Lemmas about the messages of Spec/Nodes.lean. -/

namespace Verif.Modem

open Verif Verif.Serial

theorem describes_emits {raw : List UInt8} {cfg : Configuration} (h : Describes raw cfg) : Emits cfg.iter raw := by
  obtain ⟨bs, e, hb, -⟩ := Configuration.layout (Configuration.built_iff.1 h.1)
  rwa [bytesToBits_inj (h.2.trans hb.symm)]

theorem reports_emits {raw : List UInt8} {st : Status} (h : Reports raw st) : Emits st.iter raw := by
  obtain ⟨bs, e, hb, -⟩ := Status.layout (Status.built_iff.1 h.1)
  rwa [bytesToBits_inj (h.2.trans hb.symm)]

theorem reports_length {raw : List UInt8} {st : Status} (h : Reports raw st) : 0 < raw.length ∧ raw.length ≤ 255 := by
  have h1 := congrArg List.length h.2
  rw [bytesToBits_length] at h1
  simp only [Status.fields, ChannelID.fields, ChannelHeader.fields, Addressee.fields, CT.fields, fieldBits,
    List.flatMap_append, List.flatMap_cons, List.flatMap_nil, List.length_append, bitsOf_length, flag,
    List.length_nil] at h1
  have h2 : (st.addressee.idFields.flatMap fun f => bitsOf f.1 f.2).length ≤ 64 := by
    unfold Addressee.idFields
    split <;> simp [CT.fields, bitsOf_length]
  omega

theorem asking_emits (tag : UInt8) {cfg : Configuration} {raw : List UInt8} {ops : List FileOp}
    (hr : Describes raw cfg) (h : ∀ op ∈ ops, op.Valid) :
    Emits (asking tag cfg ops).iter (askingBytes tag raw ops) := by
  have h1 : Emits (.concat ((ops.map FileOp.action).map Action.iter)) (ops.map FileOp.bytes).flatten := by
    apply emits_flatten
    simp only [List.map_map]
    induction ops with
    | nil => exact .nil
    | cons op ops ih => exact .cons (FileOp.emits (h op (by simp))) (ih fun x hx => h x (by simp [hx]))
  have h2 : Emits (asking tag cfg ops).tagRequestGen [0xB4, tag] := by
    have ht := tag.toNat_lt
    have hn : TagId.new (tag.toNat : Int) = .ok ⟨tag.toNat⟩ := validate_of ⟨by omega, by omega⟩
    unfold Command.tagRequestGen
    simp only [asking, hn]
    exact (Emits.int (i := 0xB4) (by decide) (by decide)).append (emits_byte tag)
  have h3 : Emits (Action.regular false false (.forward ⟨.D7ASP, some (.d7asp cfg)⟩)).iter ([0x32, 0xD7] ++ raw) :=
    (Emits.int (i := 0x32) (by decide) (by decide)).append
      ((Emits.int (i := 0xD7) (by decide) (by decide)).append (describes_emits hr))
  have h4 : Emits (asking tag cfg ops).iter ([0xB4, tag] ++ [] ++ ([0x32, 0xD7] ++ raw ++ (ops.map FileOp.bytes).flatten)) :=
    (h2.append Emits.nil).append (h3.append h1)
  rwa [show [0xB4, tag] ++ [] ++ ([0x32, 0xD7] ++ raw ++ (ops.map FileOp.bytes).flatten) = askingBytes tag raw ops by
    simp [askingBytes]] at h4

theorem status_reads {raw : List UInt8} {st : Status} (h : Reports raw st) (hrx : st.rxLevel ≤ 127)
    (hn : st.addressee.idType ≠ .NBID) :
    Reads AlpParser.parseAlpAction (some (.status 1 (.interfaceStatus ⟨0xD7, some st⟩)))
      (bytesToBits ([0x62, 0xD7, UInt8.ofNat raw.length] ++ raw)) := by
  have hl := reports_length h
  obtain ⟨bs, e1, -, r1⟩ := Status.codec_reread (Status.built_iff.1 h.1) hrx
  have ha := h.1.2.2.2
  have hu := (C09_addressee_round_trip_partial st.addressee ha hn).unique
    (Addressee.codec_reread (Addressee.built_iff.1 ha)).roundTrips
  have hre : st.reread = st := by
    unfold Status.reread
    rw [← hu.1]
  rw [hre] at r1
  have hbs : bs = raw := Emits.unique e1 (reports_emits h)
  subst hbs
  have h1 := AlpParser.parse_header (b7 := false) (b6 := true) (o := .interfaceStatus ⟨0xD7, some st⟩)
    (r := some (.status 1 (.interfaceStatus ⟨0xD7, some st⟩)))
    (m := bitsOf 8 0xD7 ++ (bitsOf 8 bs.length ++ bytesToBits bs)) (by
      show Reads AlpParser.parseInterfaceStatusAction _ _
      unfold AlpParser.parseInterfaceStatusAction
      refine Reads.bind (Reads.uint 8 0xD7 (by decide)) (Reads.bind (Reads.uint 8 bs.length (by omega)) ?_)
      have : Reads (AlpParser.parseInterfaceStatus 0xD7 bs.length)
          (some (.interfaceStatus ⟨0xD7, some st⟩)) (bytesToBits bs) := by
        show Reads (AlpParser.parseInterfaceStatusD7asp bs.length) _ _
        unfold AlpParser.parseInterfaceStatusD7asp
        have h2 : Reads (P.opt (decide ((bs.length : Int) > 0)) Status.parse) (some st) (bytesToBits bs) := by
          rw [decide_eq_true (by omega)]
          exact Reads.bindr r1 (Reads.pure _)
        refine Reads.bindr h2 (Reads.bind0 (Reads.lift ?_) (Reads.pure _))
        exact validate_of (by decide)
      exact Reads.bindr this (Reads.bind0 (Reads.lift rfl) (Reads.pure _)))
  have h2 : bytesToBits ([0x62, 0xD7, UInt8.ofNat bs.length] ++ bs) =
      bitsOf 8 (Action.headerByte false true 34).toNat ++ (bitsOf 8 0xD7 ++ (bitsOf 8 bs.length ++ bytesToBits bs)) := by
    simp only [List.cons_append, List.nil_append]
    rw [bytesToBits_cons, bytesToBits_cons, bytesToBits_cons]
    rw [show (UInt8.ofNat bs.length).toNat = bs.length by simp; omega]
    rfl
  rw [h2]
  exact h1

theorem going_reads (tag : UInt8) :
    Reads AlpParser.parseAlpAction (some (.tagResponse false false (.tagResponse ⟨tag.toNat⟩)))
      (bytesToBits [0x23, tag]) := by
  have ht := tag.toNat_lt
  have hn : TagId.new (tag.toNat : Int) = .ok ⟨tag.toNat⟩ := validate_of ⟨by omega, by omega⟩
  exact AlpParser.parse_header (b7 := false) (b6 := false) (o := .tagResponse ⟨tag.toNat⟩)
    (r := some (.tagResponse false false (.tagResponse ⟨tag.toNat⟩))) (m := bitsOf 8 tag.toNat)
    (Reads.bindr (Reads.uint 8 tag.toNat (by omega))
      (Reads.bind0 (Reads.lift hn) (Reads.pure _)))

theorem heard_command (tag : UInt8) (st : Status) (rs : List (UInt8 × Nat × List UInt8)) :
    Command.new (some (.tagResponse false false (.tagResponse ⟨tag.toNat⟩)) ::
      some (.status 1 (.interfaceStatus ⟨0xD7, some st⟩)) ::
      rs.map fun x => some (.regular false false (.returnFileData
        ⟨⟨x.1.toNat, ⟨x.2.1⟩⟩, ⟨x.2.2.length⟩, x.2.2.map fun b => (b.toNat : Int)⟩))) false none true 0 =
      .ok (heard tag st rs) := by
  have h1 := Command.fold_plain (rs.map fun x => Action.regular false false (.returnFileData
    ⟨⟨x.1.toNat, ⟨x.2.1⟩⟩, ⟨x.2.2.length⟩, x.2.2.map fun b => (b.toNat : Int)⟩))
    ⟨[], some (.status 1 (.interfaceStatus ⟨0xD7, some st⟩)), some tag.toNat, true, false, some false⟩ (by
      intro a ha
      obtain ⟨x, -, rfl⟩ := List.mem_map.1 ha
      rfl)
  unfold Command.new
  rw [List.foldlM_cons]
  rw [List.map_map] at h1
  simp only [Function.comp_def] at h1
  simp only [Command.addInit, Operation.tagId, bind, Except.bind, pure, Except.pure, ne_eq, not_true, if_false,
    List.foldlM_cons, h1]
  simp only [List.nil_append, heard]
  rw [show (List.map (fun x : UInt8 × Nat × List UInt8 => some (Action.regular false false (.returnFileData
    ⟨⟨x.1.toNat, ⟨x.2.1⟩⟩, ⟨x.2.2.length⟩, x.2.2.map fun b => (b.toNat : Int)⟩))) rs) =
    (rs.map fun x => Action.regular false false (.returnFileData
    ⟨⟨x.1.toNat, ⟨x.2.1⟩⟩, ⟨x.2.2.length⟩, x.2.2.map fun b => (b.toNat : Int)⟩)).map some by simp, Command.allSome_map]
  simp

theorem message_parses (tag : UInt8) (x : NodeAnswer) {st : Status} (hr : Reports x.status st)
    (hrx : st.rxLevel ≤ 127) (hn : st.addressee.idType ≠ .NBID) (h : ∀ r ∈ x.results, r.2.1 < 2 ^ 30)
    (hl : (x.message tag).length ≤ 255) :
    AlpParser.parse (x.message tag).length (stream (x.message tag)) =
      .ok (heard tag st x.results) ⟨8 * (x.message tag).length, []⟩ := by
  let segs : List (List UInt8 × Option Action) :=
    ([0x23, tag], some (.tagResponse false false (.tagResponse ⟨tag.toNat⟩))) ::
    ([0x62, 0xD7, UInt8.ofNat x.status.length] ++ x.status, some (.status 1 (.interfaceStatus ⟨0xD7, some st⟩))) ::
    x.results.map fun x => (returned x, some (.regular false false (.returnFileData
        ⟨⟨x.1.toNat, ⟨x.2.1⟩⟩, ⟨x.2.2.length⟩, x.2.2.map fun b => (b.toNat : Int)⟩)))
  have hs : (segs.map Prod.fst).flatten = x.message tag := by
    simp [segs, NodeAnswer.message, List.map_map, Function.comp_def]
  have hd : ∀ r ∈ x.results, r.2.2.length < 2 ^ 30 := by
    intro r hr
    have : r.2.2.length ≤ (x.message tag).length := by
      have h1 : (returned r).length ≤ ((x.results.map returned).flatten).length :=
        (List.sublist_flatten_of_mem (List.mem_map.2 ⟨r, hr, rfl⟩)).length_le
      have h2 : r.2.2.length ≤ (returned r).length := by simp [returned]; omega
      simp only [NodeAnswer.message, List.length_append]
      omega
    omega
  have key := AlpParser.parse_runs (n := (x.message tag).length) (segs := segs) (rest := [])
    (c := heard tag st x.results) (by
      intro y hy
      simp only [segs, List.mem_cons, List.mem_map] at hy
      rcases hy with rfl | rfl | ⟨z, hz, rfl⟩
      · exact ⟨going_reads tag, by simp⟩
      · exact ⟨status_reads hr hrx hn, by simp⟩
      · exact ⟨returned_reads z (h z hz) (hd z hz), by simp [returned]⟩)
    (by rw [hs])
    (by
      intro init last e
      have hlast : last.1 ≠ [] := by
        have : last ∈ segs := by rw [e]; simp
        simp only [segs, List.mem_cons, List.mem_map] at this
        rcases this with rfl | rfl | ⟨y, -, rfl⟩ <;> simp [returned]
      rw [← hs, e]
      have := List.length_pos_iff.2 hlast
      simp
      omega)
    (by
      have := heard_command tag st x.results
      simpa [segs, List.map_map, Function.comp_def] using this)
  rw [hs] at key
  simpa using key

theorem header_fails {b7 b6 : Bool} {o : Operation} {e : PyErr} {m : List Bool}
    (h : Fails (AlpParser.dispatch o.op b7 b6) e m) :
    Fails AlpParser.parseAlpAction e (bitsOf 8 (Action.headerByte b7 b6 o.op).toNat ++ m) := by
  have hs := Action.header_spec b7 b6 o
  rw [hs.2.2.2.2]
  simp only [List.append_assoc]
  exact .bind (.bool _) (.bind (.bool _) (.bind (Reads.uintI 6 _ hs.2.2.1 hs.2.2.2.1) h))

theorem status_fails {raw : List UInt8} {st : Status} (h : Reports raw st) (hrx : 128 ≤ st.rxLevel) :
    Fails AlpParser.parseAlpAction .valueError (bytesToBits ([0x62, 0xD7, UInt8.ofNat raw.length] ++ raw)) := by
  have hl := reports_length h
  obtain ⟨bs, e1, r1⟩ := Status.fails (Status.built_iff.1 h.1) (by omega)
  have hbs : bs = raw := Emits.unique e1 (reports_emits h)
  subst hbs
  have h1 := header_fails (b7 := false) (b6 := true) (o := .interfaceStatus ⟨0xD7, some st⟩) (e := .valueError)
    (m := bitsOf 8 0xD7 ++ (bitsOf 8 bs.length ++ bytesToBits bs)) (by
      show Fails AlpParser.parseInterfaceStatusAction _ _
      unfold AlpParser.parseInterfaceStatusAction
      refine Fails.bind (Reads.uint 8 0xD7 (by decide)) (Fails.bind (Reads.uint 8 bs.length (by omega)) ?_)
      refine Fails.here ?_
      show Fails (AlpParser.parseInterfaceStatusD7asp bs.length) _ _
      unfold AlpParser.parseInterfaceStatusD7asp
      refine Fails.here ?_
      rw [decide_eq_true (by omega)]
      exact Fails.here r1)
  have h2 : bytesToBits ([0x62, 0xD7, UInt8.ofNat bs.length] ++ bs) =
      bitsOf 8 (Action.headerByte false true 34).toNat ++ (bitsOf 8 0xD7 ++ (bitsOf 8 bs.length ++ bytesToBits bs)) := by
    simp only [List.cons_append, List.nil_append]
    rw [bytesToBits_cons, bytesToBits_cons, bytesToBits_cons]
    rw [show (UInt8.ofNat bs.length).toNat = bs.length by simp; omega]
    rfl
  rw [h2]
  exact h1

theorem loop_next {n parsed : Int} {fuel : Nat} {acts : List (Option Action)} {s s' : St} {a : Option Action}
    (h : AlpParser.parseAlpAction s = .ok a s') (hn : parsed < n) (h8 : s.pos % 8 = 0) (h8' : s'.pos % 8 = 0) :
    AlpParser.parseLoop n (fuel + 1) parsed acts s =
      AlpParser.parseLoop n fuel (parsed + ((s'.pos / 8 : Nat) - (s.pos / 8 : Nat))) (acts ++ [a]) s' := by
  rw [AlpParser.parseLoop, if_pos hn, P.bind_apply]
  simp only [P.bytepos, P.bind_apply, if_pos h8, h, if_pos h8']

theorem loop_stop {n parsed : Int} {fuel : Nat} {acts : List (Option Action)} {s s' : St} {e : PyErr}
    (h : AlpParser.parseAlpAction s = .err e s') (hn : parsed < n) (h8 : s.pos % 8 = 0) :
    AlpParser.parseLoop n (fuel + 1) parsed acts s = .err e s' := by
  rw [AlpParser.parseLoop, if_pos hn, P.bind_apply]
  simp only [P.bytepos, P.bind_apply, if_pos h8, h]

/-- A status with a high receive level cannot be parsed. -/
theorem message_fails (tag : UInt8) (x : NodeAnswer) {st : Status} (hr : Reports x.status st)
    (hrx : 128 ≤ st.rxLevel) {n : Nat} (hn : 2 < n) :
    ∃ s, AlpParser.parse n (stream (x.message tag)) = .err .valueError s := by
  obtain ⟨s1, h1⟩ := status_fails hr hrx 16 (bytesToBits (x.results.map returned).flatten)
  have h0 := going_reads tag 0 (bytesToBits ([0x62, 0xD7, UInt8.ofNat x.status.length] ++ x.status) ++
    bytesToBits (x.results.map returned).flatten)
  have hst : stream (x.message tag) = ⟨0, bytesToBits [0x23, tag] ++
      (bytesToBits ([0x62, 0xD7, UInt8.ofNat x.status.length] ++ x.status) ++
        bytesToBits (x.results.map returned).flatten)⟩ := by
    simp only [stream, NodeAnswer.message, ← bytesToBits_append]
    simp
  have hlen : ∃ k, (stream (x.message tag)).rest.length + 1 = k + 2 :=
    ⟨(stream (x.message tag)).rest.length - 1, by
      have : 0 < (stream (x.message tag)).rest.length := by
        simp [stream, NodeAnswer.message, bytesToBits_length]
      omega⟩
  obtain ⟨k, hk⟩ := hlen
  refine ⟨s1, ?_⟩
  unfold AlpParser.parse
  have key : AlpParser.parseActions n (stream (x.message tag)) = .err .valueError s1 := by
    unfold AlpParser.parseActions
    rw [if_pos (by omega), hk, hst]
    rw [loop_next h0 (by omega) rfl (by simp)]
    refine loop_stop h1 ?_ (by simp)
    simp [bytesToBits_length]
    omega
  rw [P.bind_apply, key]

end Verif.Modem
