import Verif.Model.SystemCommands
import Verif.Lemmas.SystemFiles3

/-! System files yield integers only. -/

namespace Verif

/-- All items are integers. -/
def Ints (g : Gen) : Prop := ∀ i ∈ g.items, ∃ n, i = .int n

namespace Ints

theorem append {g h : Gen} (hg : Ints g) (hh : Ints h) : Ints (g ++ h) := by
  intro i hi
  change i ∈ (Gen.append g h).items at hi
  unfold Gen.append at hi
  split at hi
  · exact hg i hi
  · rcases List.mem_append.1 hi with hi | hi
    · exact hg i hi
    · exact hh i hi

theorem int (n : Int) : Ints (.int n) := by
  intro i hi
  exact ⟨n, by simpa [Gen.int] using hi⟩

theorem nil : Ints .nil := by intro i hi; cases hi

theorem raise (e : PyErr) : Ints (.raise e) := by intro i hi; cases hi

theorem ofBytes (x : Except PyErr (List UInt8)) : Ints (.ofBytes x) := by
  cases x with
  | error e => exact raise e
  | ok bs =>
    intro i hi
    obtain ⟨b, -, rfl⟩ := List.mem_map.1 hi
    exact ⟨_, rfl⟩

theorem concat {l : List Gen} (h : ∀ g ∈ l, Ints g) : Ints (.concat l) := by
  induction l with
  | nil => exact nil
  | cons g l ih => exact (h g (by simp)).append (ih fun x hx => h x (by simp [hx]))

theorem concatMap {α : Type} {f : α → Gen} {l : List α} (h : ∀ a ∈ l, Ints (f a)) :
    Ints (.concat (l.map f)) := concat fun g hg => by
  obtain ⟨a, ha, rfl⟩ := List.mem_map.1 hg
  exact h a ha

end Ints

macro "ints" : tactic => `(tactic| with_reducible repeat' first
  | exact Ints.int _ | exact Ints.ofBytes _ | exact Ints.nil | exact Ints.raise _
  | assumption
  | apply Ints.append)

theorem CT.ints (c : CT) : Ints c.iter := by unfold CT.iter; ints
theorem ChannelHeader.ints (c : ChannelHeader) : Ints c.iter := by unfold ChannelHeader.iter; ints
theorem ChannelID.ints (c : ChannelID) : Ints c.iter := by
  have := c.channelHeader.ints
  unfold ChannelID.iter; ints
theorem ChannelStatusIdentifier.ints (c : ChannelStatusIdentifier) : Ints c.iter := by
  unfold ChannelStatusIdentifier.iter; ints
theorem SubBand.ints (c : SubBand) : Ints c.iter := by unfold SubBand.iter; ints
theorem SubProfile.ints (c : SubProfile) : Ints c.iter := by
  have := c.scanAutomationPeriod.ints
  unfold SubProfile.iter; ints
theorem AccessProfile.ints (c : AccessProfile) : Ints c.iter := by
  have := c.channelHeader.ints
  have := Ints.concatMap (l := c.subProfiles) fun p _ => p.ints
  have := Ints.concatMap (l := c.subBands) fun p _ => p.ints
  unfold AccessProfile.iter; ints
theorem QoS.ints (c : QoS) : Ints c.iter := by unfold QoS.iter; ints
theorem Addressee.ints (c : Addressee) : Ints c.iter := by
  unfold Addressee.iter
  ints
  split <;> ints
theorem Configuration.ints (c : Configuration) : Ints c.iter := by
  have := c.qos.ints
  have := c.dormTo.ints
  have := c.addressee.ints
  unfold Configuration.iter; ints
theorem IfaceConfig.ints (c : IfaceConfig) : Ints c.iter := by
  cases c with
  | d7asp c => exact c.ints
  | abp c => unfold IfaceConfig.iter LoRaWANABP.iter; ints
  | otaa c => unfold IfaceConfig.iter LoRaWANOTAA.iter; ints

theorem keyBytes_ints (k : Int) : Ints (keyBytes k) := Ints.concatMap fun _ _ => Ints.int _

theorem SystemFile.ints (f : SystemFile) : Ints f.iter := by
  cases f with
  | uid f => simp only [SystemFile.iter]; unfold UidFile.iter; ints
  | factorySettings f => simp only [SystemFile.iter]; unfold FactorySettingsFile.iter; ints
  | firmwareVersion f => simp only [SystemFile.iter]; unfold FirmwareVersionFile.iter; ints
  | engineeringMode f =>
    have := f.channelId.ints
    simp only [SystemFile.iter]; unfold EngineeringModeFile.iter; ints
  | vid f => simp only [SystemFile.iter]; unfold VidFile.iter; ints
  | phyStatus f =>
    have : Ints (.concat ((List.range f.channelStatusListLength.toNat).map f.iterChannel)) := by
      refine Ints.concatMap fun k _ => ?_
      unfold PhyStatusFile.iterChannel
      apply Ints.append
      · split
        · exact ChannelStatusIdentifier.ints _
        · exact Ints.raise _
      · split
        · exact Ints.int _
        · exact Ints.raise _
    simp only [SystemFile.iter]; unfold PhyStatusFile.iter; ints
  | dllConfig f => simp only [SystemFile.iter]; unfold DllConfigFile.iter; ints
  | dllStatus f =>
    have := f.channelHeader.ints
    simp only [SystemFile.iter]; unfold DllStatusFile.iter; ints
  | securityKey f => exact keyBytes_ints _
  | rootKey f =>
    exact (keyBytes_ints _).append (Ints.concat fun g hg => by
      rw [(List.mem_replicate.1 hg).2]; exact Ints.int _)
  | userKey f =>
    exact (keyBytes_ints _).append (Ints.concat fun g hg => by
      rw [(List.mem_replicate.1 hg).2]; exact Ints.int _)
  | accessProfile f =>
    simp only [SystemFile.iter, AccessProfileFile.iter]
    split
    · exact AccessProfile.ints _
    · exact Ints.raise _
  | interfaceConfiguration f =>
    refine (Ints.int _).append ?_
    split
    · exact IfaceConfig.ints _
    · exact Ints.nil
  | notImplemented f => exact Ints.concatMap fun _ _ => Ints.int _

/-- `list(obj)` of integers gives the bytes that `bytearray(obj)` gives. -/
theorem listOf_bytes {g : Gen} (hg : Ints g) {bs : List UInt8} (h : bytearray g = .ok bs) :
    listOf g = .ok ((ords bs).map Item.int) := by
  obtain ⟨items, exc⟩ := g
  unfold bytearray at h
  cases hi : itemsToBytes items with
  | error e => simp only [hi] at h; cases h
  | ok b =>
    simp only [hi] at h
    cases exc with
    | some e => cases h
    | none =>
      injection h with h
      subst h
      unfold listOf
      simp only [Except.ok.injEq]
      replace hg : ∀ i ∈ items, ∃ n, i = Item.int n := hg
      induction items generalizing b with
      | nil => injection hi with hi; subst hi; rfl
      | cons x l ih =>
        obtain ⟨n, rfl⟩ := hg x (by simp)
        by_cases hn : 0 ≤ n ∧ n ≤ 255
        · unfold itemsToBytes Item.toByte at hi
          simp only [if_pos hn] at hi
          cases h1 : itemsToBytes l with
          | error e => rw [h1] at hi; cases hi
          | ok b1 =>
            rw [h1] at hi
            injection hi with hi
            subst hi
            rw [ih b1 h1 fun i hi => hg i (by simp [hi])]
            simp only [ords, List.map_cons, List.cons.injEq, and_true, Item.int.injEq]
            rw [ofNat_toNat_u8 (by omega)]
            omega
        · unfold itemsToBytes Item.toByte at hi
          simp only [if_neg hn] at hi
          repeat' split at hi
          all_goals cases hi

theorem listOf_error {g : Gen} {e : PyErr} (h : bytearray g = .error e) (hg : Ints g) :
    (∃ e', listOf g = .error e') ∨
      ∃ l, listOf g = .ok (l.map Item.int) ∧ ¬ isBytes l := by
  obtain ⟨items, exc⟩ := g
  cases exc with
  | some e' => exact .inl ⟨e', rfl⟩
  | none =>
    right
    unfold bytearray at h
    cases hi : itemsToBytes items with
    | ok b => simp only [hi] at h; cases h
    | error e' =>
      clear h
      unfold listOf
      simp only [Except.ok.injEq]
      replace hg : ∀ i ∈ items, ∃ n, i = Item.int n := hg
      induction items with
      | nil => cases hi
      | cons x l ih =>
        obtain ⟨n, rfl⟩ := hg x (by simp)
        by_cases hn : 0 ≤ n ∧ n ≤ 255
        · have : ∃ e'', itemsToBytes l = .error e'' := by
            unfold itemsToBytes Item.toByte at hi
            simp only [if_pos hn] at hi
            split at hi
            · exact ⟨_, by assumption⟩
            · cases hi
          obtain ⟨e'', h2⟩ := this
          have : e'' = e' := by
            unfold itemsToBytes Item.toByte at hi
            simp only [if_pos hn, h2] at hi
            injection hi
          subst this
          obtain ⟨l', h3, h4⟩ := ih h2 fun i hi => hg i (by simp [hi])
          exact ⟨n :: l', by simp [h3], fun hb => h4 fun i hi => hb i (by simp [hi])⟩
        · have : ∃ l' : List Int, l = l'.map Item.int := by
            refine ⟨l.map fun | .int i => i | _ => 0, ?_⟩
            rw [List.map_map]
            symm
            refine (List.map_congr_left fun i hi => ?_).trans (List.map_id l)
            obtain ⟨m, rfl⟩ := hg i (by simp [hi])
            rfl
          obtain ⟨l', rfl⟩ := this
          exact ⟨n :: l', rfl, fun hb => hn (hb n (by simp))⟩

theorem filterMap_ints (l : List Int) : (l.map Item.int).filterMap Item.int? = l := by
  induction l with
  | nil => rfl
  | cons x l ih => rw [List.map_cons, List.filterMap_cons, ih]; rfl

theorem Data.newItems_ints (l : List Int) (o : Offset) :
    Data.newItems (l.map Item.int) o = Data.new l o := by
  unfold Data.newItems Data.new
  rw [List.length_map, filterMap_ints]
  cases Length.new l.length with
  | error e => rfl
  | ok n =>
    simp only [bind, Except.bind]
    unfold validate
    simp

end Verif
