import Verif.Spec.Device
import Verif.Lemmas.ActionCodec
import Verif.Lemmas.Tables5
import Verif.Lemmas.CommandRun

/-! Lemmas about the bytes exchanged with the device of Spec/Device.lean. -/

namespace Verif.Modem

open Verif Verif.Serial

/-! ### Numbers -/

theorem ofNat_mod (n : Nat) : UInt8.ofNat (n % 256) = UInt8.ofNat n := by
  apply UInt8.toNat_inj.1
  simp

theorem encode_beBytes (n : Nat) (h : n < 2 ^ 30) :
    beBytes (Length.mk n).size (((Length.mk n).size - 1) * 2 ^ (8 * (Length.mk n).size - 2) + n) = encode n := by
  have hc := Length.size_cases ⟨n⟩ ⟨by simp, by simp; omega⟩
  simp only at hc
  unfold encode
  rcases hc with ⟨hs, hv⟩ | ⟨hs, hv⟩ | ⟨hs, hv⟩ | ⟨hs, hv⟩ <;> rw [hs]
  · rw [if_pos (by omega)]
    have := beBytes_length_field 0 n (by omega) (by omega)
    simpa [beBytes] using this
  · rw [if_neg (by omega), if_pos (by omega)]
    have := beBytes_length_field 1 n (by omega) (by omega)
    simpa [beBytes, ofNat_mod] using this
  · rw [if_neg (by omega), if_neg (by omega), if_pos (by omega)]
    have := beBytes_length_field 2 n (by omega) (by omega)
    simpa [beBytes, ofNat_mod] using this
  · rw [if_neg (by omega), if_neg (by omega), if_neg (by omega)]
    have := beBytes_length_field 3 n (by omega) (by omega)
    simpa [beBytes, ofNat_mod] using this

theorem encode_emits (n : Nat) (h : n < 2 ^ 30) : Emits (Length.mk n).iter (encode n) := by
  have := Length.emits ⟨n⟩ ⟨by simp, by simp; omega⟩
  simp only [Int.toNat_natCast] at this
  rwa [encode_beBytes n h] at this

theorem decode_encode (n : Nat) (h : n < 2 ^ 30) (rest : List UInt8) :
    decode (encode n ++ rest) = some (n, rest) := by
  unfold encode
  split_ifs with h1 h2 h3
  · simp only [List.cons_append, List.nil_append, decode, UInt8.toNat_ofNat']
    rw [show n % 2 ^ 8 / 64 = 0 by omega]
    simp; omega
  · simp only [List.cons_append, List.nil_append, decode, UInt8.toNat_ofNat']
    rw [show (64 + n / 2 ^ 8) % 2 ^ 8 / 64 = 1 by omega]
    simp; omega
  · simp only [List.cons_append, List.nil_append, decode, UInt8.toNat_ofNat']
    rw [show (128 + n / 2 ^ 16) % 2 ^ 8 / 64 = 2 by omega]
    simp; omega
  · simp only [List.cons_append, List.nil_append, decode, UInt8.toNat_ofNat']
    rw [show (192 + n / 2 ^ 24) % 2 ^ 8 / 64 = 3 by omega]
    simp; omega

/-! ### Requests -/

theorem toU8s_map (l : List UInt8) : toU8s (l.map fun b => (b.toNat : Int)) = l := by
  induction l with
  | nil => rfl
  | cons x l ih => simp only [toU8s, List.map_cons, Int.toNat_natCast, UInt8.ofNat_toNat] at ih ⊢; rw [ih]

theorem isBytes_map (l : List UInt8) : isBytes (l.map fun b => (b.toNat : Int)) := by
  intro x hx
  obtain ⟨b, -, rfl⟩ := List.mem_map.1 hx
  have := b.toNat_lt
  constructor <;> omega

theorem emits_byte (b : UInt8) : Emits (.int (b.toNat : Int)) [b] := by
  have h := b.toNat_lt
  simpa using Emits.int (i := (b.toNat : Int)) (by omega) (by omega)

theorem offset_emits (file : UInt8) (o : Nat) (h : o < 2 ^ 30) :
    Emits (Offset.iter ⟨file.toNat, ⟨o⟩⟩) ([file] ++ encode o) :=
  (emits_byte file).append (encode_emits o h)

theorem data_emits (file : UInt8) (o : Nat) (d : List UInt8) (h : o < 2 ^ 30) (hd : d.length < 2 ^ 30) :
    Emits (Data.iter ⟨⟨file.toNat, ⟨o⟩⟩, ⟨d.length⟩, d.map fun b => (b.toNat : Int)⟩)
      ([file] ++ encode o ++ encode d.length ++ d) := by
  have h1 := ((offset_emits file o h).append (encode_emits _ hd)).append
    (Emits.chrs (isBytes_map d))
  rw [toU8s_map] at h1
  exact h1

theorem FileOp.emits {op : FileOp} (h : op.Valid) : Emits op.action.iter op.bytes := by
  cases op with
  | read file o l =>
    have h1 := (offset_emits file o h.1).append (encode_emits l h.2)
    exact (Emits.int (i := 1) (by decide) (by decide)).append h1
  | write file o d =>
    obtain ⟨h0, hne, hl⟩ := h
    have h1 := (Emits.int (i := 4) (by decide) (by decide)).append (data_emits file o d h0 hl)
    have hz : ¬ ((d.length : Int) = 0) := by
      have := List.length_pos_iff.2 hne
      omega
    have : (FileOp.write file o d).action.iter = .int 4 ++ Data.iter
        ⟨⟨file.toNat, ⟨o⟩⟩, ⟨d.length⟩, d.map fun b => (b.toNat : Int)⟩ := by
      simp only [FileOp.action, Action.iter, Operation.iter, if_neg hz]
      rfl
    rw [this]
    exact h1

theorem emits_flatten {gs : List Gen} {bs : List (List UInt8)} (h : List.Forall₂ Emits gs bs) :
    Emits (.concat gs) bs.flatten := by
  induction h with
  | nil => exact Emits.nil
  | cons h _ ih => exact h.append ih

theorem request_emits (tag : UInt8) {ops : List FileOp} (h : ∀ op ∈ ops, op.Valid) :
    Emits (request tag ops).iter (requestBytes tag ops) := by
  have h1 : Emits (.concat (((request tag ops).actions).map Action.iter)) (ops.map FileOp.bytes).flatten := by
    apply emits_flatten
    simp only [request, List.map_map]
    induction ops with
    | nil => exact .nil
    | cons op ops ih => exact .cons (FileOp.emits (h op (by simp))) (ih fun x hx => h x (by simp [hx]))
  have h2 : Emits (request tag ops).tagRequestGen [0xB4, tag] := by
    have ht := tag.toNat_lt
    have hn : TagId.new (tag.toNat : Int) = .ok ⟨tag.toNat⟩ := validate_of ⟨by omega, by omega⟩
    unfold Command.tagRequestGen
    simp only [request, hn]
    exact (Emits.int (i := 0xB4) (by decide) (by decide)).append (emits_byte tag)
  exact (h2.append Emits.nil).append h1

theorem decodeOps_bytes {ops : List FileOp} (h : ∀ op ∈ ops, op.Valid) : ∀ fuel, ops.length ≤ fuel →
    decodeOps fuel (ops.map FileOp.bytes).flatten = some ops := by
  induction ops with
  | nil => intro fuel _; unfold decodeOps; rfl
  | cons op ops ih =>
    intro fuel hf
    obtain ⟨fuel, rfl⟩ : ∃ k, fuel = k + 1 := ⟨fuel - 1, by simp at hf; omega⟩
    have ih := ih (fun x hx => h x (by simp [hx])) fuel (by simp at hf; omega)
    have hv := h op (by simp)
    simp only [List.map_cons, List.flatten_cons]
    cases op with
    | read file o l =>
      simp only [FileOp.bytes, List.cons_append, List.nil_append, List.append_assoc]
      unfold decodeOps
      simp only [decode_encode o hv.1, decode_encode l hv.2, if_true, ih, Option.map_some]
    | write file o d =>
      obtain ⟨h0, hne, hl⟩ := hv
      simp only [FileOp.bytes, List.cons_append, List.nil_append, List.append_assoc]
      unfold decodeOps
      simp only [decode_encode o h0, decode_encode _ hl]
      rw [if_neg (by decide), if_pos (by simp)]
      simp only [List.drop_left, List.take_left, ih, Option.map_some]

theorem FileOp.bytes_pos (op : FileOp) : 0 < op.bytes.length := by cases op <;> simp [FileOp.bytes]

theorem serve_request {D : Type} (dev : Device D) (d : D) (tag : UInt8) {ops : List FileOp}
    (h : ∀ op ∈ ops, op.Valid) :
    dev.serve d (requestBytes tag ops) = (dev.after d ops,
      if (answer tag (dev.results d ops)).length ≤ 255 then some (answer tag (dev.results d ops)) else none) := by
  have hl : ops.length ≤ (ops.map FileOp.bytes).flatten.length := by
    clear h
    induction ops with
    | nil => simp
    | cons op ops ih =>
      have := op.bytes_pos
      simp only [List.map_cons, List.flatten_cons, List.length_append, List.length_cons]
      omega
  simp only [requestBytes, List.cons_append, List.nil_append, Device.serve, decodeOps_bytes h _ hl]

/-! ### Frames -/

theorem nextFrame_frame (c : UInt8) (p rest : List UInt8) (h : p.length ≤ 255) :
    nextFrame (frame c 1 p ++ rest) = some p := by
  have hl : (UInt8.ofNat p.length).toNat = p.length := by simp; omega
  simp only [frame, List.cons_append, List.nil_append, nextFrame, hl, List.take_left]
  simp

theorem nextFrame_nil : nextFrame [] = none := rfl

/-! ### Answers -/

theorem returned_reads (x : UInt8 × Nat × List UInt8) (h : x.2.1 < 2 ^ 30) (hl : x.2.2.length < 2 ^ 30) :
    Reads AlpParser.parseAlpAction (some (.regular false false (.returnFileData
      ⟨⟨x.1.toNat, ⟨x.2.1⟩⟩, ⟨x.2.2.length⟩, x.2.2.map fun b => (b.toNat : Int)⟩)))
      (bytesToBits (returned x)) := by
  obtain ⟨f, o, d⟩ := x
  simp only at h hl ⊢
  have hf := f.toNat_lt
  have hok : Data.Ok ⟨⟨f.toNat, ⟨o⟩⟩, ⟨d.length⟩, d.map fun b => (b.toNat : Int)⟩ :=
    ⟨⟨⟨by simp, by simp; omega⟩, by simp, by simp; omega⟩, by simp, ⟨by simp, by simp; omega⟩, isBytes_map d⟩
  obtain ⟨bs, e, -, r⟩ := Data.codec hok
  have : bs = [f] ++ encode o ++ encode d.length ++ d := Emits.unique e (data_emits f o d h hl)
  subst this
  have h1 := AlpParser.parse_header (b7 := false) (b6 := false) (o := .returnFileData
    ⟨⟨f.toNat, ⟨o⟩⟩, ⟨d.length⟩, d.map fun b => (b.toNat : Int)⟩)
    (r := some (.regular false false (.returnFileData
      ⟨⟨f.toNat, ⟨o⟩⟩, ⟨d.length⟩, d.map fun b => (b.toNat : Int)⟩)))
    (m := bytesToBits ([f] ++ encode o ++ encode d.length ++ d))
    (Reads.bindr (f := fun x => pure (some (Action.regular false false (.returnFileData x)))) r (Reads.pure _))
  have h2 : bytesToBits (returned (f, o, d)) = bitsOf 8 (Action.headerByte false false 32).toNat ++
      bytesToBits ([f] ++ encode o ++ encode d.length ++ d) := by
    simp only [returned, List.cons_append, List.nil_append]
    rw [bytesToBits_cons]
    rfl
  rw [h2]
  exact h1

theorem tagged_reads (tag : UInt8) :
    Reads AlpParser.parseAlpAction (some (.tagResponse true false (.tagResponse ⟨tag.toNat⟩)))
      (bytesToBits [0xA3, tag]) := by
  have ht := tag.toNat_lt
  have hn : TagId.new (tag.toNat : Int) = .ok ⟨tag.toNat⟩ := validate_of ⟨by omega, by omega⟩
  have h1 := AlpParser.parse_header (b7 := true) (b6 := false) (o := .tagResponse ⟨tag.toNat⟩)
    (r := some (.tagResponse true false (.tagResponse ⟨tag.toNat⟩))) (m := bitsOf 8 tag.toNat)
    (Reads.bindr (Reads.uint 8 tag.toNat (by omega))
      (Reads.bind0 (Reads.lift hn) (Reads.pure _)))
  exact h1

theorem answer_command (tag : UInt8) (rs : List (UInt8 × Nat × List UInt8)) :
    Command.new (some (.tagResponse true false (.tagResponse ⟨tag.toNat⟩)) ::
      rs.map fun x => some (.regular false false (.returnFileData
        ⟨⟨x.1.toNat, ⟨x.2.1⟩⟩, ⟨x.2.2.length⟩, x.2.2.map fun b => (b.toNat : Int)⟩))) false none true 0 =
      .ok (answered tag rs) := by
  have h1 := Command.fold_plain (rs.map fun x => Action.regular false false (.returnFileData
    ⟨⟨x.1.toNat, ⟨x.2.1⟩⟩, ⟨x.2.2.length⟩, x.2.2.map fun b => (b.toNat : Int)⟩))
    ⟨[], none, some tag.toNat, true, true, some false⟩ (by
      intro a ha
      obtain ⟨x, -, rfl⟩ := List.mem_map.1 ha
      rfl)
  unfold Command.new
  rw [List.foldlM_cons]
  rw [List.map_map] at h1
  simp only [Function.comp_def] at h1
  simp only [Command.addInit, Operation.tagId, bind, Except.bind, pure, Except.pure, ne_eq, not_true, if_false, h1]
  simp only [List.nil_append, answered]
  rw [show (List.map (fun x : UInt8 × Nat × List UInt8 => some (Action.regular false false (.returnFileData
    ⟨⟨x.1.toNat, ⟨x.2.1⟩⟩, ⟨x.2.2.length⟩, x.2.2.map fun b => (b.toNat : Int)⟩))) rs) =
    (rs.map fun x => Action.regular false false (.returnFileData
    ⟨⟨x.1.toNat, ⟨x.2.1⟩⟩, ⟨x.2.2.length⟩, x.2.2.map fun b => (b.toNat : Int)⟩)).map some by simp, Command.allSome_map]
  simp

theorem answer_parses (tag : UInt8) (rs : List (UInt8 × Nat × List UInt8)) (h : ∀ x ∈ rs, x.2.1 < 2 ^ 30)
    (hl : (answer tag rs).length ≤ 255) :
    AlpParser.parse (answer tag rs).length (stream (answer tag rs)) =
      .ok (answered tag rs) ⟨8 * (answer tag rs).length, []⟩ := by
  let segs : List (List UInt8 × Option Action) := ([0xA3, tag], some (.tagResponse true false (.tagResponse ⟨tag.toNat⟩))) ::
    rs.map fun x => (returned x, some (.regular false false (.returnFileData
        ⟨⟨x.1.toNat, ⟨x.2.1⟩⟩, ⟨x.2.2.length⟩, x.2.2.map fun b => (b.toNat : Int)⟩)))
  have hs : (segs.map Prod.fst).flatten = answer tag rs := by
    simp [segs, answer, List.map_map, Function.comp_def]
  have hd : ∀ x ∈ rs, x.2.2.length < 2 ^ 30 := by
    intro x hx
    have : x.2.2.length ≤ (answer tag rs).length := by
      have h1 : (returned x).length ≤ ((rs.map returned).flatten).length :=
        (List.sublist_flatten_of_mem (List.mem_map.2 ⟨x, hx, rfl⟩)).length_le
      have h2 : x.2.2.length ≤ (returned x).length := by simp [returned]; omega
      simp only [answer, List.length_append]
      omega
    omega
  have key := AlpParser.parse_runs (n := (answer tag rs).length) (segs := segs) (rest := []) (c := answered tag rs) (by
      intro x hx
      simp only [segs, List.mem_cons, List.mem_map] at hx
      rcases hx with rfl | ⟨y, hy, rfl⟩
      · exact ⟨tagged_reads tag, by simp⟩
      · exact ⟨returned_reads y (h y hy) (hd y hy), by simp [returned]⟩)
    (by rw [hs])
    (by
      intro init last e
      have hlast : last.1 ≠ [] := by
        have : last ∈ segs := by rw [e]; simp
        simp only [segs, List.mem_cons, List.mem_map] at this
        rcases this with rfl | ⟨y, -, rfl⟩ <;> simp [returned]
      rw [← hs, e]
      have := List.length_pos_iff.2 hlast
      simp
      omega)
    (by
      have := answer_command tag rs
      simpa [segs, List.map_map, Function.comp_def] using this)
  rw [hs] at key
  simpa using key

end Verif.Modem
