import Verif.Lemmas.HexTool
import Verif.Props.Commands
import Verif.Props.SerialFrames
import Verif.Props.SystemFiles
import Verif.Props.SerialStream
import Verif.Props.Print

/-! C60: tools/parse_hexstring.py. -/

namespace Verif.HexTool

open Verif

/-- C60: the bytes read from the argument are exactly those that the text spells: two digits of either case
per byte, spaces anywhere, blanks before and after. Any other text is a TypeError. -/
theorem C60_bytes (s : List Char) :
    (∀ bs, bytes s = .ok bs ↔ Spells s bs) ∧ ((¬ ∃ bs, Spells s bs) → bytes s = .error .typeError) := by
  refine ⟨bytes_iff s, fun h => ?_⟩
  cases hb : bytes s with
  | ok bs => exact absurd ⟨bs, (bytes_iff s bs).1 hb⟩ h
  | error e => rw [decode_error hb]

example : Spells " \t0a FF 3 c\n".toList [10, 255, 60] := by
  rw [← bytes_iff]; decide

/-- C60: a text spells at most one string of bytes. -/
theorem C60_unique {s : List Char} {bs bs' : List UInt8} (h : Spells s bs) (h' : Spells s bs') :
    bs = bs' := by
  rw [← bytes_iff] at h h'
  rw [h] at h'
  injection h'

example (bs : List UInt8) (h : Spells "0a FF".toList bs) : bs = [10, 255] :=
  C60_unique h (by rw [← bytes_iff]; decide)

theorem digit_exists (n : Nat) (hn : n < 16) : ∃ c, IsDigit c n :=
  ⟨"0123456789abcdef".toList[n]'(by simpa using hn), .inl (List.getElem?_eq_getElem _)⟩

/-- C60: every string of bytes can be spelled. -/
theorem C60_spelling (bs : List UInt8) : ∃ s, Spells s bs := by
  suffices h : ∃ s, Written bs s by
    obtain ⟨s, h⟩ := h
    exact ⟨s, [], s, [], by simp, by simp [Blank], by simp [Blank], h⟩
  induction bs with
  | nil => exact ⟨[], .nil⟩
  | cons b bs ih =>
    obtain ⟨s, hs⟩ := ih
    obtain ⟨h, hh⟩ := digit_exists (b.toNat / 16) (by have := b.toNat_lt; omega)
    obtain ⟨l, hl⟩ := digit_exists (b.toNat % 16) (by omega)
    exact ⟨_, .byte [] hh hl (by simp) hs⟩

example : Spells "c000".toList [0xC0, 0] := by rw [← bytes_iff]; decide

theorem main_eq {s : List Char} {bs : List UInt8} (h : Spells s bs) (k : Kind) (id : Option Int) :
    main k id s = match k with
      | .alp => (value (AlpParser.parse bs.length (stream bs))).map .command
      | .systemfile =>
        match id with
        | none => .error .valueError
        | some id => SystemFiles.lookup id >>= fun t => (value (t.parse (stream bs))).map .file
      | .serial => ((Serial.Parser.new false).parse bs).2.map .messages
      | .fg => unpackPair ((Dll.Parser.new .FOREGROUND).parse bs).2
      | .bg => unpackPair ((Dll.Parser.new .BACKGROUND).parse bs).2 := by
  unfold main
  rw [(bytes_iff s bs).2 h]
  cases k <;> rfl

/-- C60, type `alp`: for every command that comes back (C20), the text of its bytes prints a command with the
same actions, flags and tag. -/
theorem C60_alp (c : Command) (hact : ∀ a ∈ c.actions, a.Built ∧ a.ComesBack ∧ ¬ a.operation.isTag)
    (htag : c.generateTagRequestAction = true → ∃ t, c.tagId = some t ∧ 0 ≤ t ∧ t ≤ 255)
    (hst : c.interfaceStatus = none) :
    ∃ bs d, bytearray c.iter = .ok bs ∧ Serial.ArrivesAs c d ∧
      ∀ s id, Spells s bs → main .alp id s = .ok (.command d) := by
  obtain ⟨bs, d, e1, e2, e3, e4, e5, e6, -⟩ := C20_command_round_trip_partial c hact htag hst
  refine ⟨bs, d, e1, ⟨e3, e4, e5, e6⟩, fun s id hs => ?_⟩
  rw [main_eq hs]
  have := e2 []
  rw [List.append_nil] at this
  simp only [this, value, Except.map]

/-- Reading two bytes of file 0x40, with tag 7. -/
example : main .alp none "b407 01 40 00 02".toList =
    .ok (.command ⟨[.regular false false (.readFileData ⟨⟨0x40, ⟨0⟩⟩, ⟨2⟩⟩)], none, false, some 7, true,
      false, none⟩) := by
  have hs : Spells "b407 01 40 00 02".toList [0xB4, 7, 1, 0x40, 0, 2] := by rw [← bytes_iff]; decide
  rw [main_eq hs]
  have : AlpParser.parse ↑[0xB4, 7, 1, 0x40, 0, (2 : UInt8)].length (stream [0xB4, 7, 1, 0x40, 0, 2]) = .ok ⟨[.regular false false
    (.readFileData ⟨⟨0x40, ⟨0⟩⟩, ⟨2⟩⟩)], none, false, some 7, true, false, none⟩ ⟨48, []⟩ := by
    decide +kernel
  simp only [this, value, Except.map]

/-- C60, type `serial`: the text of any number of well-formed frames prints their messages in order, without
errors. -/
theorem C60_serial (fs : List Serial.Sent) (hfs : ∀ f ∈ fs, f.Valid false) {s : List Char}
    (hs : Spells s (fs.map Serial.Sent.bytes).flatten) (id : Option Int) :
    ∃ o, main .serial id s = .ok (.messages o) ∧ o.cmds = fs.map Serial.Sent.delivered ∧ o.errors = [] := by
  obtain ⟨q, h, -⟩ := Serial.C30_frames (Serial.Parser.new false) fs hfs
    [(fs.map Serial.Sent.bytes).flatten] (by simp) (by simp [Serial.Parser.new])
  rw [main_eq hs]
  unfold Serial.feed at h
  split at h
  · cases h
  · next q' o ho =>
    simp only [Serial.feed, Except.ok.injEq, Prod.mk.injEq, List.append_nil] at h
    refine ⟨o, ?_, h.2.1, h.2.2⟩
    simp only [ho, Except.map]

/-- A message that the modem restarted. -/
example : ∃ o, main .serial none "C0 00 01 05 01 D1 93 03".toList = .ok (.messages o) ∧
    o.cmds = [(5, .rebooted 3)] ∧ o.errors = [] :=
  C60_serial [⟨1, 5, [3], .rebooted 3⟩]
    (by
      intro f hf
      simp only [List.mem_cons, List.not_mem_nil, or_false] at hf
      subst hf
      exact ⟨by decide, .rebooted 3⟩)
    (by
      have : ([(⟨1, 5, [3], .rebooted 3⟩ : Serial.Sent)].map Serial.Sent.bytes).flatten =
        [0xC0, 0, 1, 5, 1, 0xD1, 0x93, 3] := by decide +kernel
      rw [this, ← bytes_iff]; decide) none

/-- C60, type `systemfile`: content that stands for a file (`Interprets`, as for a returned file, C48) prints
that file. -/
theorem C60_systemfile {id : Int} {bs : List UInt8} {f : SystemFile} (h : Interprets id bs f)
    {s : List Char} (hs : Spells s bs) : main .systemfile (some id) s = .ok (.file f) := by
  obtain ⟨t, n, s', h1, h2, h3, h4⟩ := (interprets_iff id bs f).2 h
  rw [main_eq hs]
  simp only [h1, bind, Except.bind, h4, value, Except.map]

example : Interprets 6 [0xAB, 0xCD, 1] (.vid ⟨0xABCD, 1⟩) := ⟨rfl, by decide, ⟨24, []⟩, by decide +kernel⟩

/-- C60, type `systemfile`: nothing else is printed, for content that is not longer than the file. -/
theorem C60_systemfile_only {id : Int} {bs : List UInt8} {p : Printed} {s : List Char} (hs : Spells s bs)
    (h : main .systemfile (some id) s = .ok p) :
    ∃ f, p = .file f ∧ (Interprets id bs f ∨
      ∃ t n, SystemFiles.lookup id = .ok t ∧ t.length = .ok n ∧ n < bs.length) := by
  rw [main_eq hs] at h
  simp only at h
  rcases h1 : SystemFiles.lookup id with e | t
  · rw [h1] at h; cases h
  · rw [h1] at h
    simp only [bind, Except.bind] at h
    cases h2 : t.parse (stream bs) with
    | err e s' => rw [h2] at h; cases h
    | ok f s' =>
      rw [h2] at h
      cases h
      refine ⟨f, rfl, ?_⟩
      obtain ⟨n, hn⟩ := lookup_length h1
      by_cases hl : (bs.length : Int) ≤ n
      · exact .inl ((interprets_iff id bs f).1 ⟨t, n, s', h1, hn, hl, h2⟩)
      · exact .inr ⟨t, n, rfl, hn, by omega⟩

/-- A VID file. -/
example : main .systemfile (some 6) "AB CD 01".toList = .ok (.file (.vid ⟨0xABCD, 1⟩)) :=
  C60_systemfile (bs := [0xAB, 0xCD, 1]) (f := .vid ⟨0xABCD, 1⟩)
    ⟨rfl, by decide, ⟨24, []⟩, by decide +kernel⟩ (by rw [← bytes_iff]; decide)

/-- C60 is false for frames: with types `fg` and `bg` the tool raises whatever the text is. -/
theorem C60_frames_refuted (k : Kind) (hk : k = .fg ∨ k = .bg) (id : Option Int) (s : List Char) :
    ∃ e, main k id s = .error e := by
  unfold main
  cases hb : bytes s with
  | error e => exact ⟨e, rfl⟩
  | ok bs =>
    have : ∀ x, ∃ e, unpackPair x = .error e := by
      intro x
      cases x with
      | error e => exact ⟨e, rfl⟩
      | ok o => exact ⟨_, rfl⟩
    rcases hk with rfl | rfl
    · exact this _
    · exact this _

/-- A complete background frame is parsed, but not printed. -/
example : ((Dll.Parser.new .BACKGROUND).parse [5, 0xC7, 1, 2, 3, 4]).2.toOption.isSome = true := by
  decide +kernel

/-- C60: whatever is parsed can be printed: the tool raises only where parsing does, and everything it shows is the text
of the parsed object, followed by the end of the line. -/
theorem C60_printed (e : Print.Env) (info : Serial.Output → Print.Text) {k : Kind} {id : Option Int} {s : List Char}
    {p : Printed} (h : main k id s = .ok p) :
    ∃ t, stdout e info k id s = .ok t ∧ Shows e info t p := by
  unfold stdout
  rw [h]
  show ∃ t, p.text e info = .ok t ∧ _
  unfold main at h
  cases hb : bytes s with
  | error x => rw [hb] at h; cases h
  | ok bs =>
    rw [hb] at h
    simp only [bind, Except.bind] at h
    cases k with
    | alp =>
      simp only at h
      cases hp : AlpParser.parse bs.length (stream bs) with
      | err x s' => rw [hp] at h; cases h
      | ok c s' =>
        rw [hp] at h
        cases h
        obtain ⟨t, ht⟩ := Print.C61_command_parsed e hp
        exact ⟨t ++ ['\n'], by simp [Printed.text, ht, Functor.map, Except.map], t, ht, rfl⟩
    | systemfile =>
      cases id with
      | none => cases h
      | some id =>
        simp only at h
        cases hl : SystemFiles.lookup id with
        | error x => rw [hl] at h; cases h
        | ok ft =>
          rw [hl] at h
          simp only at h
          cases hp : ft.parse (stream bs) with
          | err x s' => rw [hp] at h; cases h
          | ok f s' =>
            rw [hp] at h
            cases h
            obtain ⟨t, ht⟩ := Print.C61_system_file_parsed e hp
            exact ⟨t ++ ['\n'], by simp [Printed.text, ht, Functor.map, Except.map], t, ht, rfl⟩
    | serial =>
      simp only at h
      cases hp : (Serial.Parser.new false).parse bs with
      | mk q r =>
        rw [hp] at h
        cases r with
        | error x => cases h
        | ok o =>
          cases h
          have hd := Serial.Deliveries.mem (Serial.C32_sound _ _ _ _ hp)
          have hm : ∀ m ∈ o.cmds, ∃ t, msgText e m.2 = .ok t := by
            intro m hm
            obtain ⟨_, _, _, pl, after, _, _, _, _, hr⟩ := hd m hm
            obtain ⟨ty, m⟩ := m
            generalize pl ++ after = input, pl.length = n at hr
            cases hr with
            | rebooted => exact ⟨_, rfl⟩
            | bytes => exact ⟨_, rfl⟩
            | alp taken more c h4 h5 hs hp => exact Print.C61_command_parsed e hp
          have hl : ∀ ms : List (Int × Serial.Msg), (∀ m ∈ ms, ∃ t, msgText e m.2 = .ok t) →
              ∃ xs : List Print.Text, List.Forall₂ (fun m x => match m with
                | (_, .command c) => Print.command e c = .ok x
                | (_, .bytes b) => x = b.map fun y => Char.ofNat y.toNat
                | (_, .rebooted n) => x = Print.dec n) ms xs ∧
                lines e ms = .ok (xs.map (· ++ ['\n'])).flatten := by
            intro ms
            induction ms with
            | nil => intro _; exact ⟨[], .nil, rfl⟩
            | cons m ms ih =>
              intro hms
              obtain ⟨x, hx⟩ := hms m (by simp)
              obtain ⟨xs, h1, h2⟩ := ih fun y hy => hms y (by simp [hy])
              obtain ⟨ty, m⟩ := m
              refine ⟨x :: xs, .cons ?_ h1, ?_⟩
              · cases m <;> simp_all [msgText]
              simp only [lines, hx, h2, bind, Except.bind, pure, Except.pure]
              simp
          obtain ⟨xs, h1, h2⟩ := hl o.cmds hm
          exact ⟨_, by simp only [Printed.text, h2, Functor.map, Except.map], xs, h1, rfl⟩
    | fg =>
      simp only at h
      unfold unpackPair at h
      split at h <;> cases h
    | bg =>
      simp only at h
      unfold unpackPair at h
      split at h <;> cases h

/-- A VID file, and a restarted modem. -/
example (e : Print.Env) (info : Serial.Output → Print.Text) :
    stdout e info .systemfile (some 6) "AB CD 01".toList = .ok "vid=0xabcd, control=0x1\n".toList := by
  have h : main .systemfile (some 6) "AB CD 01".toList = .ok (.file (.vid ⟨0xABCD, 1⟩)) :=
    C60_systemfile (bs := [0xAB, 0xCD, 1]) (f := .vid ⟨0xABCD, 1⟩)
      ⟨rfl, by decide, ⟨24, []⟩, by decide +kernel⟩ (by rw [← bytes_iff]; decide)
  have ht : Print.vidFile ⟨0xABCD, 1⟩ = .ok "vid=0xabcd, control=0x1".toList := by decide +kernel
  simp only [stdout, h, bind, Except.bind, Printed.text, Print.systemFile, ht, Functor.map, Except.map]
  decide

end Verif.HexTool
