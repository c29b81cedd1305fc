import Verif.Model.Senders
import Verif.Props.SerialFrames

/-! C72: what examples/throughput_test.py can send, for all payload sizes, addresses, tags and states of the
serial parser. -/

namespace Verif.Examples

open Verif Verif.Serial

/-- The bytes of the interface configuration of a run: quality of service, dormant timeout, addressee. -/
def Phase.head (uid : Nat) : Phase → List UInt8
  | .broadcastQos => [0x02, 0, 0x00, 0x01, 1]
  | .broadcast => [0x00, 0, 0x10, 0x01]
  | .unicastQos => [0x02, 0, 0x20, 0x01] ++ beBytes 8 uid
  | .unicast => [0x00, 0, 0x20, 0x01] ++ beBytes 8 uid

/-- The run uses the address. -/
def Phase.usesUid : Phase → Bool
  | .unicastQos => true
  | .unicast => true
  | _ => false

/-- The largest payload that fits into a serial frame. -/
def Phase.limit : Phase → Nat
  | .broadcastQos => 241
  | .broadcast => 242
  | .unicastQos => 234
  | .unicast => 234

/-- The length field of up to two bytes: six or fourteen bits. -/
def lengthField (n : Nat) : List UInt8 :=
  if n < 64 then [UInt8.ofNat n] else [UInt8.ofNat (64 + n / 256), UInt8.ofNat (n % 256)]

/-- The command on the wire: tag request, forward action, return file data action with offset 0 in file 0x40,
whose operand is left out if there is no data. -/
def Phase.bytes (phase : Phase) (rand : UInt8) (uid n : Nat) : List UInt8 :=
  [0xB4, rand, 0x32, 0xD7] ++ phase.head uid ++ [0x20] ++
  if n = 0 then [] else [0x40, 0x00] ++ lengthField n ++ (List.range n).map UInt8.ofNat

private theorem payload_emits (n : Nat) (h : n ≤ 256) :
    Emits (.concat ((payload n).map Gen.chr)) ((List.range n).map UInt8.ofNat) := by
  unfold payload
  rw [Int.toNat_natCast, List.map_map]
  have : ∀ l : List Nat, (∀ x ∈ l, x < 256) →
      Emits (.concat (l.map (Gen.chr ∘ Int.ofNat))) (l.map UInt8.ofNat) := by
    intro l hl
    induction l with
    | nil => exact Emits.nil
    | cons x l ih =>
      have hx := hl x (by simp)
      exact (Emits.chr (i := (x : Int)) (by omega) (by omega)).append (ih fun y hy => hl y (by simp [hy]))
  exact this _ fun x hx => by have := List.mem_range.1 hx; omega

private theorem length_emits (n : Nat) (h : n ≤ 256) : Emits (Length.iter ⟨n⟩) (lengthField n) := by
  have := Length.emits ⟨n⟩ ⟨by simp only; omega, by simp only; omega⟩
  unfold Length.size at this
  unfold lengthField
  by_cases h6 : n < 64
  · rw [if_pos h6]
    have e1 : ¬ ((n : Int) > 0x3F) := by omega
    have e2 : ¬ ((n : Int) > 0x3FFF) := by omega
    have e3 : ¬ ((n : Int) > 0x3FFFFF) := by omega
    simp only [if_neg e1, if_neg e2, if_neg e3] at this
    simpa [beBytes, Nat.mod_eq_of_lt (show n < 256 by omega)] using this
  · rw [if_neg h6]
    have e1 : (n : Int) > 0x3F := by omega
    have e2 : ¬ ((n : Int) > 0x3FFF) := by omega
    have e3 : ¬ ((n : Int) > 0x3FFFFF) := by omega
    simp only [if_pos e1, if_neg e2, if_neg e3] at this
    have e4 : (16384 + n) / 256 % 256 = 64 + n / 256 := by omega
    have e5 : (16384 + n) % 256 = n % 256 := by omega
    simpa [beBytes, e4, e5] using this

private theorem uid_ok (uid : Int) (h : 0 ≤ uid ∧ uid ≤ 0xFFFFFFFFFFFFFFFF) :
    Addressee.new 0x01 .UID (.int uid) .NONE = .ok ⟨0x01, .UID, .int uid, .NONE⟩ ∧
    Emits (Addressee.iter ⟨0x01, .UID, .int uid, .NONE⟩) ([0x20, 0x01] ++ beBytes 8 uid.toNat) := by
  have hi : Addressee.idOk .UID (.int uid) = true := by simpa [Addressee.idOk] using h
  exact ⟨validate_of ⟨by decide, hi⟩,
    Addressee.emits ⟨0x01, .UID, .int uid, .NONE⟩ ⟨by show isByte 1; decide, hi, fun c hc => by cases hc⟩⟩

theorem cfg_ok (phase : Phase) (uid : Int)
    (hu : phase.usesUid = true → 0 ≤ uid ∧ uid ≤ 0xFFFFFFFFFFFFFFFF) :
    ∃ cfg, phase.configuration uid = .ok cfg ∧ Emits cfg.iter (phase.head uid.toNat) ∧
      cfg.Built ∧ cfg.addressee.Survives := by
  cases phase with
  | broadcastQos =>
    exact ⟨_, rfl, rfl, ⟨rfl, rfl, fun c hc => by cases hc; rfl⟩, fun c hc => by cases hc; exact .inl rfl⟩
  | broadcast => exact ⟨_, rfl, rfl, ⟨rfl, rfl, fun c hc => by cases hc⟩, fun c hc => by cases hc⟩
  | unicastQos =>
    obtain ⟨ha, he⟩ := uid_ok uid (hu rfl)
    refine ⟨⟨⟨.ANY, .NO, false, false⟩, ⟨0, 0⟩, ⟨0x01, .UID, .int uid, .NONE⟩⟩, ?_, ?_,
      ⟨rfl, ha, fun c hc => by cases hc⟩, fun c hc => by cases hc⟩
    · show (do let a ← Addressee.new 0x01 .UID (.int uid) .NONE; _) = _
      rw [ha]; rfl
    · exact Emits.append (a := [0x02, 0]) rfl he
  | unicast =>
    obtain ⟨ha, he⟩ := uid_ok uid (hu rfl)
    refine ⟨⟨⟨.NO, .NO, false, false⟩, ⟨0, 0⟩, ⟨0x01, .UID, .int uid, .NONE⟩⟩, ?_, ?_,
      ⟨rfl, ha, fun c hc => by cases hc⟩, fun c hc => by cases hc⟩
    · show (do let a ← Addressee.new 0x01 .UID (.int uid) .NONE; _) = _
      rw [ha]; rfl
    · exact Emits.append (a := [0x00, 0]) rfl he

theorem cfg_error (phase : Phase) (uid : Int) (h : phase.usesUid = true)
    (hu : ¬ (0 ≤ uid ∧ uid ≤ 0xFFFFFFFFFFFFFFFF)) : phase.configuration uid = .error .valueError := by
  have ha : Addressee.new 0x01 .UID (.int uid) .NONE = .error .valueError :=
    validate_eq_error.2 ⟨fun hc => hu (by simpa [Addressee.idOk] using hc.2), rfl⟩
  cases phase with
  | broadcastQos => cases h
  | broadcast => cases h
  | unicastQos =>
    show (do let a ← Addressee.new 0x01 .UID (.int uid) .NONE; _) = _
    rw [ha]; rfl
  | unicast =>
    show (do let a ← Addressee.new 0x01 .UID (.int uid) .NONE; _) = _
    rw [ha]; rfl

private theorem isBytes_payload (n : Int) : isBytes (payload n) ↔ n ≤ 256 := by
  unfold isBytes payload
  constructor
  · intro h
    by_contra hn
    have := h 256 (List.mem_map.2 ⟨256, List.mem_range.2 (by omega), rfl⟩)
    omega
  · intro h x hx
    obtain ⟨y, hy, rfl⟩ := List.mem_map.1 hx
    have := List.mem_range.1 hy
    simp only [Int.ofNat_eq_natCast]
    omega

/-- The command of a run. -/
def built (rand : UInt8) (cfg : Configuration) (n : Int) : Command :=
  ⟨[.regular false false (.forward ⟨.D7ASP, some (.d7asp cfg)⟩),
    .regular false false (.returnFileData ⟨⟨0x40, ⟨0⟩⟩, ⟨n.toNat⟩, payload n⟩)],
    none, true, some rand.toNat, true, false, none⟩

private theorem data_ok (n : Int) (hn : n ≤ 256) :
    Data.new (payload n) ⟨0x40, ⟨0⟩⟩ = .ok ⟨⟨0x40, ⟨0⟩⟩, ⟨n.toNat⟩, payload n⟩ := by
  have hl : (payload n).length = n.toNat := by simp [payload]
  unfold Data.new
  have : Length.new ((payload n).length : Int) = .ok ⟨n.toNat⟩ := by
    rw [hl]; exact validate_of ⟨by omega, by omega⟩
  rw [this]
  exact validate_of ((isBytes_payload n).2 hn)

theorem command_ok (phase : Phase) (rand : UInt8) (uid n : Int) (cfg : Configuration)
    (hc : phase.configuration uid = .ok cfg) (hn : n ≤ 256) :
    phase.command rand uid n = .ok (built rand cfg n) := by
  unfold Phase.command
  rw [hc]
  show (do let d ← Data.new (payload n) ⟨0x40, ⟨0⟩⟩; _) = _
  rw [data_ok n hn]
  rfl

theorem command_error (phase : Phase) (rand : UInt8) (uid n : Int) (cfg : Configuration)
    (hc : phase.configuration uid = .ok cfg) (hn : ¬ n ≤ 256) :
    phase.command rand uid n = .error .valueError := by
  have : Data.new (payload n) ⟨0x40, ⟨0⟩⟩ = .error .valueError := by
    unfold Data.new
    cases h : Length.new ((payload n).length : Int) with
    | error e => rw [(validate_eq_error.1 h).2]; rfl
    | ok l => exact validate_eq_error.2 ⟨fun h => hn ((isBytes_payload n).1 h), rfl⟩
  unfold Phase.command
  rw [hc]
  show (do let d ← Data.new (payload n) ⟨0x40, ⟨0⟩⟩; _) = _
  rw [this]
  rfl

theorem built_emits (phase : Phase) (rand : UInt8) (uid n : Int) (cfg : Configuration)
    (he : Emits cfg.iter (phase.head uid.toNat)) (hn : n ≤ 256) :
    Emits (built rand cfg n).iter (phase.bytes rand uid.toNat n.toNat) := by
  have ht : Emits (built rand cfg n).tagRequestGen [0xB4, rand] := by
    have hr := rand.toNat_lt
    have : TagId.new (rand.toNat : Int) = .ok ⟨rand.toNat⟩ := validate_of ⟨by omega, by omega⟩
    show Emits (match TagId.new (rand.toNat : Int) with | .error e => _ | .ok t => _) _
    rw [this]
    have := (Emits.int (i := 0xB4) (by decide) (by decide)).append
      (Emits.int (i := (rand.toNat : Int)) (by omega) (by omega))
    have e : UInt8.ofNat (rand.toNat : Int).toNat = rand := by simp
    rw [e] at this
    exact this
  have hf : Emits (Action.regular false false (.forward ⟨.D7ASP, some (.d7asp cfg)⟩)).iter
      ([0x32] ++ ([0xD7] ++ phase.head uid.toNat)) :=
    Emits.append rfl (Emits.append rfl he)
  have hd : Emits (Action.regular false false (.returnFileData ⟨⟨0x40, ⟨0⟩⟩, ⟨n.toNat⟩, payload n⟩)).iter
      ([0x20] ++ if n.toNat = 0 then [] else
        [0x40, 0x00] ++ lengthField n.toNat ++ (List.range n.toNat).map UInt8.ofNat) := by
    refine Emits.append rfl ?_
    show Emits (if ((n.toNat : Nat) : Int) = 0 then Gen.nil else _) _
    by_cases h0 : n.toNat = 0
    · rw [if_pos h0, if_pos (by omega)]; exact Emits.nil
    · rw [if_neg h0, if_neg (by omega)]
      refine Emits.append (Emits.append rfl (length_emits n.toNat (by omega))) ?_
      have := payload_emits n.toNat (by omega)
      have e : payload n = payload (n.toNat : Int) := by unfold payload; rw [Int.toNat_natCast]
      show Emits (.concat ((payload n).map Gen.chr)) _
      rw [e]; exact this
  have := ((ht.append Emits.nil).append (hf.append (hd.append Emits.nil)))
  unfold Phase.bytes
  have e : (built rand cfg n).iter = (built rand cfg n).tagRequestGen ++ .nil ++
      ((Action.regular false false (.forward ⟨.D7ASP, some (.d7asp cfg)⟩)).iter ++
      ((Action.regular false false (.returnFileData ⟨⟨0x40, ⟨0⟩⟩, ⟨n.toNat⟩, payload n⟩)).iter ++ .nil)) := rfl
  rw [e]
  simpa using this

theorem bytes_length (phase : Phase) (rand : UInt8) (uid n : Nat) :
    (phase.bytes rand uid n).length ≤ 255 ↔ n ≤ phase.limit := by
  have hl : (lengthField n).length = if n < 64 then 1 else 2 := by
    unfold lengthField; split <;> rfl
  unfold Phase.bytes
  by_cases h0 : n = 0
  · subst h0
    cases phase <;> simp [Phase.head, Phase.limit, beBytes]
  · rw [if_neg h0]
    cases phase <;>
      simp only [List.length_append, List.length_cons, List.length_nil, List.length_map, List.length_range, hl,
        Phase.head, Phase.limit, beBytes_length] <;> split <;> omega

/-- C72: which runs can be sent, for all payload sizes and addresses: exactly those whose address is a 64-bit
number (if the run uses it) and whose payload is not above the limit of the run. All others raise ValueError. -/
theorem C72_sends (phase : Phase) (p : Parser) (hp : 0 ≤ p.upCounter ∧ p.upCounter ≤ 255) (rand : UInt8)
    (uid n : Int) : (phase.send p rand uid n).2 =
    if (phase.usesUid = true → 0 ≤ uid ∧ uid ≤ 0xFFFFFFFFFFFFFFFF) ∧ n ≤ phase.limit then
      .ok (frame (UInt8.ofNat p.upCounter.toNat) 1 (phase.bytes rand uid.toNat n.toNat))
    else .error .valueError := by
  have hlim : phase.limit ≤ 256 := by cases phase <;> decide
  unfold Phase.send
  by_cases hu : phase.usesUid = true → 0 ≤ uid ∧ uid ≤ 0xFFFFFFFFFFFFFFFF
  · obtain ⟨cfg, hc, he, -⟩ := cfg_ok phase uid hu
    by_cases hn : n ≤ 256
    · rw [command_ok phase rand uid n cfg hc hn]
      have hb := built_emits phase rand uid n cfg he hn
      have hl := bytes_length phase rand uid.toNat n.toNat
      obtain ⟨h1, h2, -⟩ := C28_builder p hp.1 hp.2 (built rand cfg n).iter
      by_cases hs : n ≤ phase.limit
      · rw [if_pos ⟨hu, hs⟩]
        simp only [h1 _ hb (hl.2 (by omega))]
      · rw [if_neg (fun h => hs h.2)]
        simp only [h2 _ hb (by have := mt hl.1 (by omega); omega)]
    · rw [command_error phase rand uid n cfg hc hn, if_neg (fun h => hn (by omega))]
  · rw [if_neg (fun h => hu h.1)]
    have : phase.usesUid = true ∧ ¬ (0 ≤ uid ∧ uid ≤ 0xFFFFFFFFFFFFFFFF) := by
      by_contra hx; exact hu fun h => by_contra fun h' => hx ⟨h, h'⟩
    unfold Phase.command
    rw [cfg_error phase uid this.1 this.2]
    rfl

/-- With the default options (50 bytes) this run can be sent, with 235 bytes it raises. -/
example : (Phase.unicast.send (Parser.new false) 7 0xb57000009151d 50).2 =
      .ok (frame 0 1 (Phase.unicast.bytes 7 0xb57000009151d 50)) ∧
    (Phase.unicast.send (Parser.new false) 7 0xb57000009151d 235).2 = .error .valueError :=
  ⟨(C72_sends .unicast (Parser.new false) (by decide) 7 _ 50).trans (if_pos (by decide)),
   (C72_sends .unicast (Parser.new false) (by decide) 7 _ 235).trans (if_neg (by decide))⟩

/-- C72: all four runs can be sent exactly if the address is a 64-bit number and the payload has at most 234
bytes; a larger one raises ValueError when the first unicast run starts, after the broadcast runs up to 241
bytes. -/
theorem C72_all_runs (p : Parser) (hp : 0 ≤ p.upCounter ∧ p.upCounter ≤ 255) (rand : UInt8) (uid n : Int) :
    (∀ phase : Phase, ∃ f, (phase.send p rand uid n).2 = .ok f) ↔
      (0 ≤ uid ∧ uid ≤ 0xFFFFFFFFFFFFFFFF) ∧ n ≤ 234 := by
  constructor
  · intro h
    obtain ⟨f, hf⟩ := h .unicast
    rw [C72_sends .unicast p hp] at hf
    split at hf
    · next hc => exact ⟨hc.1 rfl, hc.2⟩
    · cases hf
  · rintro ⟨hu, hn⟩ phase
    refine ⟨_, (C72_sends phase p hp rand uid n).trans (if_pos ⟨fun _ => hu, ?_⟩)⟩
    cases phase <;> simp only [Phase.limit] <;> omega

example : ∀ phase : Phase, ∃ f, (phase.send (Parser.new false) 7 0xb57000009151d 234).2 = .ok f :=
  (C72_all_runs _ (by decide) _ _ _).2 (by decide)

/-- C72: a run with at least one byte of payload that can be sent arrives as sent: a parser with an empty buffer
delivers one command, with the tag, a forward action and a return file data action on file 0x40 with exactly
the numbers 0, 1, 2, ... as data. -/
theorem C72_arrives (phase : Phase) (b r : Parser) (hb : 0 ≤ b.upCounter ∧ b.upCounter ≤ 255)
    (hr : r.buffer = []) (hs : r.skipAlpParsing = false) (rand : UInt8) (uid : Int) (n : Nat)
    (hu : phase.usesUid = true → 0 ≤ uid ∧ uid ≤ 0xFFFFFFFFFFFFFFFF) (h0 : 1 ≤ n) (hn : n ≤ phase.limit) :
    ∃ b' f r' d cfg, phase.send b rand uid n = (b', .ok f) ∧ phase.configuration uid = .ok cfg ∧
      r.parse f = (r', .ok ⟨[(1, .command d)], 8 * f.length, 0, []⟩) ∧ r'.buffer = [] ∧
      d.tagId = some (rand.toNat : Int) ∧ d.actions.map Action.operation =
        [.forward ⟨.D7ASP, some (.d7asp cfg)⟩,
         .returnFileData ⟨⟨0x40, ⟨0⟩⟩, ⟨n⟩, (List.range n).map Int.ofNat⟩] := by
  have hlim : phase.limit ≤ 256 := by cases phase <;> decide
  obtain ⟨cfg, hc, he, hbt, hsv⟩ := cfg_ok phase uid hu
  have hbe := built_emits phase rand uid n cfg he (by omega)
  have hl := (bytes_length phase rand uid.toNat n).2 hn
  have ht : Transmittable (built rand cfg n) := by
    have hrt := rand.toNat_lt
    refine ⟨fun a ha => ?_, fun _ => ⟨rand.toNat, rfl, by omega, by omega⟩, rfl, fun bs h => ?_⟩
    · simp only [built, List.mem_cons, List.not_mem_nil, or_false] at ha
      rcases ha with rfl | rfl
      · have hB : (Action.regular false false (.forward ⟨.D7ASP, some (.d7asp cfg)⟩)).Built :=
          ⟨fun c h => by cases h; exact hbt, trivial⟩
        exact ⟨hB, (C19_action_iff _ hB).2 ⟨trivial, rfl, hsv⟩, id⟩
      · have hB : (Action.regular false false
            (.returnFileData ⟨⟨0x40, ⟨0⟩⟩, ⟨(n : Int).toNat⟩, payload n⟩)).Built :=
          ⟨⟨data_ok n (by omega), rfl, rfl⟩, trivial⟩
        refine ⟨hB, (C19_action_iff _ hB).2 ⟨trivial, ?_⟩, id⟩
        show payload n ≠ []
        intro hnil
        have := congrArg List.length hnil
        simp [payload] at this
        omega
    · rw [Int.toNat_natCast] at hbe
      rw [hbe.unique h] at hl
      exact hl
  obtain ⟨b', f, d, r', h1, h2, h3, h4⟩ := C28_commands b r hb hr hs _ ht [] (frame 0 1 []) [] 0 1 (by simp)
    (by simp) (by decide +kernel)
  refine ⟨b', f, r', d, cfg, ?_, hc, ?_, h4, ?_, ?_⟩
  · unfold Phase.send
    rw [command_ok phase rand uid n cfg hc (by omega)]
    exact h1
  · simpa using h3
  · exact h2.2.2.1
  · have := congrArg (List.map Prod.fst) h2.1
    rw [List.map_map, List.map_map] at this
    exact this

example : Phase.unicast.bytes 7 0xb57000009151d 3 = [0xB4, 7, 0x32, 0xD7, 0, 0, 0x20, 1, 0, 0x0b, 0x57, 0, 0, 0x09,
    0x15, 0x1d, 0x20, 0x40, 0, 3, 0, 1, 2] := by decide

end Verif.Examples
