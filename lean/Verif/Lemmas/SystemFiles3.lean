import Verif.Lemmas.SystemFiles2
import Verif.Lemmas.PhyHistory
import Verif.Lemmas.AlpGood
import Verif.Lemmas.BuiltOk

/-! Sizes, short input and lookup of system files. -/

namespace Verif

theorem Good.replicate {α : Type} {p : P α} (h : Good p) : ∀ n, Good (P.replicate n p)
  | 0 => Good.pure _
  | n + 1 => h.bind fun _ => (Good.replicate h n).bind fun _ => Good.pure _

theorem SubProfile.good : Good SubProfile.parse := by
  have := CT.good
  unfold SubProfile.parse; good

theorem AccessProfile.good : Good AccessProfile.parse :=
  ChannelHeader.good.bind fun _ => (SubProfile.good.replicate 4).bind fun _ =>
    (SubBand.good.replicate 8).bind fun _ => Good.lift _

theorem AccessProfileFile.good : Good AccessProfileFile.parse :=
  AccessProfile.good.bind fun _ => Good.lift _

/-- The profile filled up to 8 sub bands. -/
def AccessProfile.fill (p : AccessProfile) : AccessProfile :=
  { p with subBands := p.subBands ++ List.replicate (8 - p.subBands.length) .default }

theorem Gen.concat_append (a b : List Gen) : Gen.concat (a ++ b) = .concat a ++ .concat b := by
  induction a with
  | nil => rfl
  | cons g a ih =>
    show g ++ Gen.concat (a ++ b) = (g ++ Gen.concat a) ++ Gen.concat b
    rw [ih, Gen.append_assoc]

theorem AccessProfile.short {p : AccessProfile} (h : p.Ok) (h8 : p.subBands.length < 8) :
    ∃ bs, Emits p.iter bs ∧ ∀ pos, ∃ s, AccessProfileFile.parse ⟨pos, bytesToBits bs⟩ =
      .err .readError s := by
  have hok : p.fill.Ok := by
    refine ⟨⟨h.1.1, by simp [fill]; omega⟩, h.2.1, fun b hb => ?_⟩
    rcases List.mem_append.1 hb with hb | hb
    · exact h.2.2 b hb
    · rw [(List.mem_replicate.1 hb).2]
      exact SubBand.built_iff.1 (by decide)
  have hlen : p.fill.subBands.length = 8 := by simp [fill]; omega
  obtain ⟨bs, e, l⟩ := AccessProfile.emits h
  obtain ⟨full, e', l', r⟩ := AccessProfile.codec hok hlen
  have hit : p.fill.iter = p.iter ++ .concat ((List.replicate (8 - p.subBands.length)
      SubBand.default).map SubBand.iter) := by
    simp only [iter, fill, List.map_append, Gen.concat_append, Gen.append_assoc]
  rw [hit] at e'
  obtain ⟨a, b, ha, hb, rfl⟩ := e'.append_inv
  have := ha.unique e
  subst this
  refine ⟨a, e, fun pos => ?_⟩
  refine Good.short (d' := bytesToBits b) (a := ⟨0, some p.fill⟩) AccessProfileFile.good ?_ ?_ pos
  · have : Reads AccessProfile.parse p.fill (bytesToBits a ++ bytesToBits b) := by
      rw [← bytesToBits_append]; exact r
    have := Reads.bind (f := fun q => P.lift (AccessProfileFile.new 0 (some q))) this
      (Reads.lift (x := AccessProfileFile.new 0 (some p.fill)) (a := ⟨0, some p.fill⟩)
        (validate_of (by decide)))
    rw [List.append_nil] at this
    exact this
  · intro hn
    have := congrArg List.length hn
    rw [bytesToBits_length] at this
    simp at this
    subst this
    simp at l'
    omega

/-! ### Sizes -/

theorem Size.flagsByte (b : Int) : Size (.int b) 1 := Size.int b

theorem ifaceSize_size (c : IfaceConfig) (h : ∀ d, c = .d7asp d → d.Built) :
    Size c.iter (ifaceSize c) := by
  cases c with
  | d7asp d =>
    have := Size.codec (Configuration.codec_reread (Configuration.built_iff.1 (h d rfl)))
    refine this.congr ?_
    simp only [ifaceSize, addresseeSize]
    cases d.addressee.idType <;> rfl
  | abp d =>
    exact ((((Size.int _).append (Size.int _)).append (Size.int _)).append (Size.packU 4 _)).append
      (Size.packU 4 _)
  | otaa d => exact ((Size.int _).append (Size.int _)).append (Size.int _)

theorem SystemFile.size (f : SystemFile) (h : f.Built) : Size f.iter (fileSize f) := by
  cases f with
  | uid f => exact Size.packU 8 _
  | vid f => exact (Size.packU 2 _).append (Size.int _)
  | dllStatus f => exact Size.codec (DllStatusFile.codec h)
  | securityKey f =>
    exact Size.emits (keyBytes_emits (validate_eq_ok.1 h).1.1) (leBytes_length _ _)
  | rootKey f =>
    exact Size.emits ((keyBytes_emits (validate_eq_ok.1 h).1.1).append (zeros_emits 24))
      (by simp [leBytes_length, fileSize])
  | userKey f =>
    exact Size.emits ((keyBytes_emits (validate_eq_ok.1 h).1.1).append (zeros_emits 24))
      (by simp [leBytes_length, fileSize])
  | factorySettings f =>
    intro bs e
    have hv := FactorySettingsFile.built_valid h
    have hf : f.Fits := (FactorySettingsFile.serIff hv).1.1 ⟨bs, e⟩
    obtain ⟨bs', e', l, -⟩ := FactorySettingsFile.codecTo hv hf
    rw [e.unique e', l]; rfl
  | firmwareVersion f =>
    intro bs e
    obtain ⟨h1, h2⟩ := (FirmwareVersionFile.serIff h).1.1 ⟨bs, e⟩
    exact Size.codec (FirmwareVersionFile.codec_pad h h1 h2) bs e
  | engineeringMode f =>
    obtain ⟨g, eg, hc⟩ := EngineeringModeFile.codec h
    show Size f.iter 9
    rw [eg]
    exact (Size.codec hc).append ((Size.int 0).append (Size.int 0))
  | phyStatus f =>
    intro bs e
    have hok := PhyStatusFile.built_iff.1 h
    have hf := (PhyStatusFile.serIff hok).1.1 ⟨bs, e⟩
    exact Size.codec (PhyStatusFile.codec_cut hok hf) bs e
  | dllConfig f =>
    intro bs e
    have hf := (DllConfigFile.serIff h).1.1 ⟨bs, e⟩
    exact Size.codec (DllConfigFile.codec h hf) bs e
  | accessProfile f =>
    obtain ⟨i, p⟩ := f
    cases p with
    | none => exact Size.raise _ _
    | some p =>
      have hp := AccessProfile.built_iff.1 (h.2 p rfl)
      obtain ⟨bs, e, l⟩ := AccessProfile.emits hp
      refine Size.emits e ?_
      rw [l]
      show _ = 1 + 2 * p.subProfiles.length + 7 * p.subBands.length
      rw [hp.1.1]
  | interfaceConfiguration f =>
    refine (Size.int _).append ?_
    show Size (match f.interfaceConfiguration.config with
      | some x => x.iter
      | none => .nil) (match f.interfaceConfiguration.config with
      | some c => ifaceSize c
      | none => 0)
    cases hc : f.interfaceConfiguration.config with
    | none => exact Size.emits Emits.nil rfl
    | some c => exact ifaceSize_size c fun d hd => h d (by rw [hc, hd])
  | notImplemented f =>
    have := Size.concat (gen := Gen.int) (l := f.data) fun x _ => Size.int x
    exact this.congr (by simp [fileSize])

theorem P.bytes_apply (n pos : Nat) (bs : List UInt8) : P.bytes n ⟨pos, bytesToBits bs⟩ =
    if bs.length < n then .err .readError ⟨pos, bytesToBits bs⟩
    else .ok (bs.take n) ⟨pos + 8 * n, bytesToBits (bs.drop n)⟩ := by
  split
  · next h =>
    have : P.takeBits (8 * n) ⟨pos, bytesToBits bs⟩ = .err .readError ⟨pos, bytesToBits bs⟩ := by
      unfold P.takeBits; rw [if_neg (by simp [bytesToBits_length]; omega)]
    show (P.takeBits (8 * n) >>= fun bits => Pure.pure (bitsToBytes bits)) _ = _
    rw [P.bind_apply, this]
  · next h =>
    have := Reads.bytes (bs.take n) n (by simp; omega) pos (bytesToBits (bs.drop n))
    rw [← bytesToBits_append, List.take_append_drop] at this
    rw [this, bytesToBits_length, List.length_take, min_eq_left (by omega)]

theorem SecurityKeyFile.parse_err (bs : List UInt8) :
    ∃ s, SecurityKeyFile.parse (stream bs) =
      .err (if bs.length < 16 then .readError else .valueError) s := by
  unfold SecurityKeyFile.parse
  rw [P.bind_apply, stream, P.bytes_apply]
  by_cases h : bs.length < 16
  · rw [if_pos h, if_pos h]; exact ⟨_, rfl⟩
  · rw [if_neg h, if_neg h]; exact ⟨_, rfl⟩

theorem authKey_err {α : Type} (bs : List UInt8) :
    ∃ s, (do let _ ← P.bytes 16; let _ ← P.bytes 24; P.raise .valueError : P α) (stream bs) =
      .err (if bs.length < 40 then .readError else .valueError) s := by
  rw [P.bind_apply, stream, P.bytes_apply]
  by_cases h : bs.length < 16
  · rw [if_pos h, if_pos (by omega)]; exact ⟨_, rfl⟩
  · rw [if_neg h]
    simp only []
    rw [P.bind_apply, P.bytes_apply, List.length_drop]
    by_cases h2 : bs.length < 40
    · rw [if_pos (by omega), if_pos h2]; exact ⟨_, rfl⟩
    · rw [if_neg (by omega), if_neg h2]; exact ⟨_, rfl⟩

/-! ### Amount read -/

/-- A successful parse consumes exactly `n` bits. -/
def Takes {α : Type} (p : P α) (n : Nat) : Prop :=
  ∀ s a s', p s = .ok a s' → s.rest.length = n + s'.rest.length

namespace Takes

variable {α β : Type}

theorem pure (a : α) : Takes (Pure.pure a : P α) 0 := by intro s a s' h; cases h; simp

theorem lift (x : Except PyErr α) : Takes (P.lift x) 0 := by
  intro s a s' h
  obtain ⟨-, rfl⟩ := P.lift_ok.1 h
  simp

theorem raise (e : PyErr) (n : Nat) : Takes (P.raise e : P α) n := by intro s a s' h; cases h

theorem bind {p : P α} {f : α → P β} {n m : Nat} (hp : Takes p n) (hf : ∀ a, Takes (f a) m) :
    Takes (p >>= f) (n + m) := by
  intro s b s' h
  obtain ⟨a, s1, h1, h2⟩ := P.bind_ok.1 h
  have := hp _ _ _ h1
  have := hf _ _ _ _ h2
  omega

theorem takeBits (n : Nat) : Takes (P.takeBits n) n := by
  intro s a s' h
  unfold P.takeBits at h
  split at h
  · injection h with h1 h2; subst h2; simp; omega
  · cases h

theorem uint (n : Nat) : Takes (P.uint n) n := (takeBits n).bind fun _ => pure _
theorem sint (n : Nat) : Takes (P.sint n) n := (takeBits n).bind fun _ => pure _
theorem pad (n : Nat) : Takes (P.pad n) n := (takeBits n).bind fun _ => pure _
theorem bytes (n : Nat) : Takes (P.bytes n) (8 * n) := (takeBits _).bind fun _ => pure _

theorem replicate {p : P α} {k : Nat} (h : Takes p k) : ∀ n, Takes (P.replicate n p) (n * k)
  | 0 => by rw [Nat.zero_mul]; exact pure _
  | n + 1 => by
    have := h.bind fun a => (replicate h n).bind fun as => pure (a :: as)
    rw [show (n + 1) * k = k + (n * k + 0) by ring]
    exact this

theorem congr {p : P α} {n m : Nat} (h : Takes p n) (e : n = m) : Takes p m := e ▸ h

end Takes

macro "takes" : tactic => `(tactic| (
  apply Takes.congr
  · with_reducible repeat' first
    | exact Takes.uint _ | exact Takes.sint _ | exact Takes.pad _ | exact Takes.bytes _
    | exact Takes.lift _ | exact Takes.pure _
    | assumption
    | apply Takes.bind
    | intro _
  · rfl))

theorem CT.takes : Takes CT.parse 8 := by unfold CT.parse; takes
theorem ChannelHeader.takes : Takes ChannelHeader.parse 8 := by unfold ChannelHeader.parse; takes
theorem ChannelID.takes : Takes ChannelID.parse 24 := by
  have := ChannelHeader.takes
  unfold ChannelID.parse; takes
theorem ChannelStatusIdentifier.takes : Takes ChannelStatusIdentifier.parse 16 := by
  unfold ChannelStatusIdentifier.parse; takes
theorem SubBand.takes : Takes SubBand.parse 56 := by unfold SubBand.parse; takes
theorem SubProfile.takes : Takes SubProfile.parse 16 := by
  have := CT.takes
  unfold SubProfile.parse; takes
theorem AccessProfile.takes : Takes AccessProfile.parse 520 := by
  have := ChannelHeader.takes
  have := SubProfile.takes.replicate 4
  have := SubBand.takes.replicate 8
  unfold AccessProfile.parse; takes
theorem AccessProfileFile.takes : Takes AccessProfileFile.parse 520 := by
  have := AccessProfile.takes
  unfold AccessProfileFile.parse; takes
theorem UidFile.takes : Takes UidFile.parse 64 := by unfold UidFile.parse; takes
theorem VidFile.takes : Takes VidFile.parse 24 := by unfold VidFile.parse; takes
theorem FirmwareVersionFile.takes : Takes FirmwareVersionFile.parse 136 := by
  unfold FirmwareVersionFile.parse; takes
theorem EngineeringModeFile.takes : Takes EngineeringModeFile.parse 56 := by
  have := ChannelID.takes
  unfold EngineeringModeFile.parse; takes
theorem DllConfigFile.takes : Takes DllConfigFile.parse 56 := by unfold DllConfigFile.parse; takes
theorem DllStatusFile.takes : Takes DllStatusFile.parse 128 := by
  have := ChannelHeader.takes
  unfold DllStatusFile.parse; takes
theorem FactorySettingsFile.takes : Takes FactorySettingsFile.parse 448 := by
  unfold FactorySettingsFile.parse; takes


theorem PhyStatusFile.reads_count {s s' : St} {f : PhyStatusFile}
    (h : PhyStatusFile.parse s = .ok f s') :
    s.rest.length = 8 * (15 + 3 * f.channelStatusListLength.toNat) + s'.rest.length := by
  unfold PhyStatusFile.parse at h
  obtain ⟨_, s1, h1, h⟩ := P.bind_ok.1 h
  obtain ⟨_, s2, h2, h⟩ := P.bind_ok.1 h
  obtain ⟨_, s3, h3, h⟩ := P.bind_ok.1 h
  obtain ⟨_, s4, h4, h⟩ := P.bind_ok.1 h
  obtain ⟨n, s5, h5, h⟩ := P.bind_ok.1 h
  obtain ⟨cs, s6, h6, h⟩ := P.bind_ok.1 h
  obtain ⟨h7, rfl⟩ := P.lift_ok.1 h
  obtain ⟨-, rfl⟩ := validate_eq_ok.1 h7
  have t1 := Takes.uint _ _ _ _ h1
  have t2 := Takes.uint _ _ _ _ h2
  have t3 := Takes.uint _ _ _ _ h3
  have t4 := Takes.uint _ _ _ _ h4
  have t5 := Takes.uint _ _ _ _ h5
  have tc : Takes PhyStatusFile.parseChannel 24 := by
    have := ChannelStatusIdentifier.takes
    unfold PhyStatusFile.parseChannel; takes
  have t6 := tc.replicate _ _ _ _ h6
  simp only
  omega

/-! ### Lookup -/

theorem SystemFile.lift_ok {α : Type} {c : α → SystemFile} {p : P α} {s s' : St} {f : SystemFile} :
    SystemFile.lift c p s = .ok f s' ↔ ∃ a, f = c a ∧ p s = .ok a s' := by
  unfold SystemFile.lift
  constructor
  · intro h
    obtain ⟨a, s1, h1, h2⟩ := P.bind_ok.1 h
    obtain ⟨rfl, rfl⟩ := P.pure_ok.1 h2
    exact ⟨a, rfl, h1⟩
  · rintro ⟨a, rfl, h⟩
    exact P.bind_ok.2 ⟨a, s', h, rfl⟩

/-- A file is attached iff it is found in the table, not longer than declared and parses. -/
theorem tryParse_iff (d : Data) (bs : List UInt8) (hd : d.data = ords bs)
    (hl : d.length.value = d.data.length) (f : SystemFile) :
    (∃ t, ReturnFileData.tryParseSystemFile d = .ok (some t, some f)) ↔
      ∃ t n s, SystemFiles.lookup d.offset.id = .ok t ∧ t.length = .ok n ∧ (bs.length : Int) ≤ n ∧
        t.parse (stream bs) = .ok f s := by
  have hba : bytearray (.concat (d.data.map Gen.int)) = .ok bs := by
    rw [hd]
    have hb : isBytes (ords bs) := by
      intro v hv
      obtain ⟨b, -, rfl⟩ := List.mem_map.1 hv
      have := b.toNat_lt
      constructor <;> omega
    have := Emits.ints hb
    rwa [show toU8s (ords bs) = bs by
      unfold toU8s ords
      rw [List.map_map]
      exact (List.map_congr_left fun b _ => by simp).trans (List.map_id bs)] at this
  have hlen : d.length.value = bs.length := by rw [hl, hd]; simp [ords]
  unfold ReturnFileData.tryParseSystemFile ReturnFileData.tryParse
  rw [hba, hlen]
  constructor
  · rintro ⟨t, h⟩
    cases hlk : SystemFiles.lookup d.offset.id with
    | error e => rw [hlk] at h; cases h
    | ok t' =>
      rw [hlk] at h
      simp only at h
      cases hn : t'.length with
      | error e => rw [hn] at h; cases h
      | ok n =>
        rw [hn] at h
        simp only at h
        split at h
        · next hle =>
          cases hp : t'.parse (stream bs) with
          | err e s => rw [hp] at h; cases h
          | ok g s =>
            rw [hp] at h
            injection h with h
            injection h with h1 h2
            injection h2 with h2
            subst h2
            exact ⟨t', n, s, rfl, hn, hle, hp⟩
        · cases h
  · rintro ⟨t, n, s, h1, h2, h3, h4⟩
    rw [h1]
    simp only
    rw [h2]
    simp only
    rw [if_pos h3, h4]
    exact ⟨t, rfl⟩

/-- The attached file of a response. -/
theorem parsed_iff {d : Data} {r : ReturnFileData} (hr : ReturnFileData.new d = .ok r)
    {f : SystemFile} : r.fileDataParsed = some f ↔
      ∃ t, ReturnFileData.tryParseSystemFile d = .ok (some t, some f) := by
  have ht := hr
  unfold ReturnFileData.new at hr
  cases h : ReturnFileData.tryParseSystemFile d with
  | error e => rw [h] at hr; cases hr
  | ok x =>
    obtain ⟨t, g⟩ := x
    rw [h] at hr
    injection hr with hr
    subst hr
    unfold ReturnFileData.tryParseSystemFile ReturnFileData.tryParse at h
    constructor
    · rintro rfl
      repeat' split at h
      all_goals first | cases h | skip
      exact ⟨_, rfl⟩
    · rintro ⟨t', e⟩
      injection e with e
      injection e with _ e

theorem type_iff {d : Data} {r : ReturnFileData} (hr : ReturnFileData.new d = .ok r) :
    r.systemfileType.isSome = r.fileDataParsed.isSome := by
  unfold ReturnFileData.new at hr
  cases h : ReturnFileData.tryParseSystemFile d with
  | error e => rw [h] at hr; cases hr
  | ok x =>
    obtain ⟨t, g⟩ := x
    rw [h] at hr
    injection hr with hr
    subst hr
    unfold ReturnFileData.tryParseSystemFile ReturnFileData.tryParse at h
    repeat' split at h
    all_goals (cases h <;> rfl)

theorem lookup_length {x : Int} {t : SystemFile} (h : SystemFiles.lookup x = .ok t) :
    ∃ n, t.length = .ok n := by
  unfold SystemFiles.lookup SystemFileIds.ofValue at h
  by_cases hr : 0 ≤ x ∧ x ≤ 0x2F
  · rw [if_pos hr] at h
    obtain ⟨h1, h2⟩ := hr
    interval_cases x <;> first | (injection h with h; subst h; exact ⟨_, rfl⟩) | cases h
  · rw [if_neg hr] at h; cases h

theorem lookup_access {x : Int} (h : 0x20 ≤ x ∧ x ≤ 0x2E) :
    SystemFiles.lookup x = .ok (.accessProfile ⟨x - 0x20, none⟩) := by
  obtain ⟨h1, h2⟩ := h
  interval_cases x <;> rfl

theorem interprets_iff (x : Int) (bs : List UInt8) (f : SystemFile) :
    (∃ t n s, SystemFiles.lookup x = .ok t ∧ t.length = .ok n ∧ (bs.length : Int) ≤ n ∧
        t.parse (stream bs) = .ok f s) ↔ Interprets x bs f := by
  constructor
  · rintro ⟨t, n, s, h1, h2, h3, h4⟩
    unfold SystemFiles.lookup SystemFileIds.ofValue at h1
    split at h1
    · cases h1
    · next k hk =>
      split at hk
      · next hr =>
        injection hk with hk
        subst hk
        obtain ⟨hr1, hr2⟩ := hr
        by_cases ha : 0x20 ≤ x
        · by_cases hb : x ≤ 0x2E
          · have := lookup_access ⟨ha, hb⟩
            unfold SystemFiles.lookup SystemFileIds.ofValue at this
            rw [if_pos ⟨hr1, hr2⟩] at this
            simp only at this
            rw [this] at h1
            injection h1 with h1
            subst h1
            injection h2 with h2
            obtain ⟨a, rfl, hp⟩ := SystemFile.lift_ok.1 h4
            exact ⟨⟨ha, hb⟩, by omega, s, hp⟩
          · have : x = 0x2F := by omega
            subst this
            cases h1
        · have : x < 0x20 := by omega
          interval_cases x <;>
          · injection h1 with h1
            subst h1
            injection h2 with h2
            first
            | (obtain ⟨a, rfl, hp⟩ := SystemFile.lift_ok.1 h4
               exact ⟨rfl, by omega, s, hp⟩)
            | cases h4
      · cases hk
  · intro h
    cases f with
    | accessProfile g =>
      obtain ⟨h1, h2, s, h3⟩ := h
      exact ⟨_, 65, s, lookup_access h1, rfl, by omega, SystemFile.lift_ok.2 ⟨_, rfl, h3⟩⟩
    | interfaceConfiguration g => exact h.elim
    | notImplemented g => exact h.elim
    | _ =>
      obtain ⟨rfl, h2, s, h3⟩ := h
      exact ⟨_, _, s, rfl, rfl, by omega, SystemFile.lift_ok.2 ⟨_, rfl, h3⟩⟩

end Verif
