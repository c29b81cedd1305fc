import Mathlib.Tactic.IntervalCases
import Verif.Lemmas.PrintText

/-! Helper lemmas for C61 and C62: system files. -/

namespace Verif.Print

open Verif

theorem header_length (h : ChannelHeader) : h.str.length = if h.channelBand = .NOT_IMPL then 9 else 5 := by
  obtain ⟨a, b, c⟩ := h
  cases a <;> cases b <;> cases c <;> rfl

theorem header_head (h : ChannelHeader) : h.str.head? = some 'O' ↔ h.channelBand = .NOT_IMPL := by
  obtain ⟨a, b, c⟩ := h
  cases a <;> cases b <;> cases c <;> decide

theorem header_append {h h' : ChannelHeader} {r r' : Text} (e : h.str ++ r = h'.str ++ r') :
    h.str = h'.str ∧ r = r' := by
  apply List.append_inj e
  have hne : ∀ x : ChannelHeader, x.str ≠ [] := by
    intro x hx
    have := header_length x
    rw [hx] at this
    split at this <;> cases this
  have hh : h.str.head? = h'.str.head? := by
    have := congrArg List.head? e
    cases h1 : h.str with
    | nil => exact absurd h1 (hne h)
    | cons c t =>
      cases h2 : h'.str with
      | nil => exact absurd h2 (hne h')
      | cons d t' =>
        rw [h1, h2] at this
        simpa using this
  have : h.channelBand = .NOT_IMPL ↔ h'.channelBand = .NOT_IMPL := by
    rw [← header_head, ← header_head, hh]
  rw [header_length, header_length]
  simp only [this]

theorem ofNat_toNat : ∀ n < 128, (Char.ofNat n).toNat = n := by decide

theorem ascii_injective {s s' : List Nat} {t : Text} (h : ascii s = .ok t) (h' : ascii s' = .ok t) :
    s = s' := by
  have key : ∀ {s : List Nat} {t : Text}, ascii s = .ok t → t.map Char.toNat = s := by
    intro s t h
    unfold ascii at h
    split at h
    · next hs =>
      cases h
      rw [List.map_map]
      conv_rhs => rw [← List.map_id s]
      exact List.map_congr_left fun n hn => ofNat_toNat n (hs n hn)
    · cases h
  rw [← key h, ← key h']

theorem ascii_length {s : List Nat} {t : Text} (h : ascii s = .ok t) : t.length = s.length := by
  unfold ascii at h
  split at h
  · cases h; simp
  · cases h

theorem sha_mark (t : Text) (k : Nat) (h1 : 1 ≤ k) (h2 : k ≤ 6) :
    (", git_sha1=".toList ++ t)[k]? ≠ some ',' := by
  interval_cases k
  · show some ' ' ≠ some ','; decide
  · show some 'g' ≠ some ','; decide
  · show some 'i' ≠ some ','; decide
  · show some 't' ≠ some ','; decide
  · show some '_' ≠ some ','; decide
  · show some 's' ≠ some ','; decide

/-- A name of at most six characters ends where the label of the next field begins. -/
theorem name_append {a b t t' : Text} (ha : a.length ≤ 6) (hb : b.length ≤ 6)
    (h : a ++ (", git_sha1=".toList ++ t) = b ++ (", git_sha1=".toList ++ t')) : a = b ∧ t = t' := by
  have key : ∀ {a b t t' : Text}, b.length ≤ 6 → a.length < b.length →
      a ++ (", git_sha1=".toList ++ t) = b ++ (", git_sha1=".toList ++ t') → False := by
    intro a b t t' hb hl h
    have hk := sha_mark t (b.length - a.length) (by omega) (by omega)
    apply hk
    have e1 := congrArg (fun l : Text => l[b.length]?) h
    rw [List.getElem?_append_right (by omega), List.getElem?_append_right (l₁ := b) (by omega),
      Nat.sub_self] at e1
    rw [e1]
    rfl
  have hl : a.length = b.length := by
    rcases Nat.lt_trichotomy a.length b.length with hl | hl | hl
    · exact (key hb hl h).elim
    · exact hl
    · exact (key ha hl h.symm).elim
  obtain ⟨h1, h2⟩ := List.append_inj h hl
  exact ⟨h1, List.append_cancel_left h2⟩

set_option maxRecDepth 8000 in
theorem firmware_eq {f : FirmwareVersionFile} {t : Text} (h : firmwareVersionFile f = .ok t) :
    ∃ n s, ascii f.applicationName = .ok n ∧ ascii f.gitSha1 = .ok s ∧
      t = "d7ap v".toList ++ (dec f.d7apMajor ++ ('.' :: (dec f.d7apMinor ++ (", filesystem v".toList ++
        (dec f.fsMajor ++ ('.' :: (dec f.fsMinor ++ (", application_name=".toList ++
        (n ++ (", git_sha1=".toList ++ (s ++ []))))))))))) := by
  unfold firmwareVersionFile at h
  cases hn : ascii f.applicationName with
  | error e => rw [hn] at h; cases h
  | ok n =>
    cases hs : ascii f.gitSha1 with
    | error e => rw [hn, hs] at h; cases h
    | ok s =>
      rw [hn, hs] at h
      refine ⟨n, s, rfl, rfl, ?_⟩
      have e : format "d7ap v{}, filesystem v{}, application_name={}, git_sha1={}".toList
        [dec f.d7apMajor ++ '.' :: dec f.d7apMinor, dec f.fsMajor ++ '.' :: dec f.fsMinor, n, s] =
        .ok ("d7ap v".toList ++ ((dec f.d7apMajor ++ '.' :: dec f.d7apMinor) ++ (", filesystem v".toList ++
        ((dec f.fsMajor ++ '.' :: dec f.fsMinor) ++ (", application_name=".toList ++
        (n ++ (", git_sha1=".toList ++ (s ++ [])))))))) := rfl
      have h' : Except.ok _ = Except.ok t := e.symm.trans h
      injection h' with h'
      rw [← h']
      simp only [List.append_assoc, List.cons_append]

theorem firmware_injective {f g : FirmwareVersionFile} {t : Text} (hf : f.applicationName.length ≤ 6)
    (hg : g.applicationName.length ≤ 6) (h : firmwareVersionFile f = .ok t)
    (h' : firmwareVersionFile g = .ok t) : f = g := by
  obtain ⟨n, s, h1, h2, rfl⟩ := firmware_eq h
  obtain ⟨n', s', h3, h4, e⟩ := firmware_eq h'
  obtain ⟨e1, e⟩ := dec_append (by stops) (by stops) (List.append_cancel_left e)
  obtain ⟨e2, e⟩ := dec_append (by stops) (by stops) (List.cons.inj e).2
  obtain ⟨e3, e⟩ := dec_append (by stops) (by stops) (List.append_cancel_left e)
  obtain ⟨e4, e⟩ := dec_append (by stops) (by stops) (List.cons.inj e).2
  obtain ⟨e5, e'⟩ := name_append (by rw [ascii_length h1]; exact hf) (by rw [ascii_length h3]; exact hg)
    (List.append_cancel_left e)
  replace e' := List.append_cancel_right e'
  subst e5
  subst e'
  have e6 := ascii_injective h1 h3
  have e7 := ascii_injective h2 h4
  cases f; cases g; simp_all

/-! ### PHY status -/

/-- The entries of the channel list. -/
def entries : List (ChannelStatusIdentifier × Int) → Text
  | [] => []
  | (c, v) :: r => "identifier=".toList ++ ("channel_band=".toList ++ (lstrip c.channelBand.name "BAND_".toList ++
    (", channel_bandwidth=".toList ++ (bandwidth c.channelBandwidth ++ (", channel_index=".toList ++
    (dec c.channelIndex ++ (", noise_floor=".toList ++ (dec v ++ ("; ".toList ++ entries r)))))))))

theorem entries_cons (c : ChannelStatusIdentifier) (v : Int) (r : List (ChannelStatusIdentifier × Int)) :
    entries ((c, v) :: r) = "identifier=".toList ++ ("channel_band=".toList ++
    (lstrip c.channelBand.name "BAND_".toList ++
    (", channel_bandwidth=".toList ++ (bandwidth c.channelBandwidth ++ (", channel_index=".toList ++
    (dec c.channelIndex ++ (", noise_floor=".toList ++ (dec v ++ ("; ".toList ++ entries r))))))))) := rfl

theorem entry_eq (i d : Text) : format "identifier={}, noise_floor={}; ".toList [i, d] =
    .ok ("identifier=".toList ++ (i ++ (", noise_floor=".toList ++ (d ++ "; ".toList)))) := rfl

theorem channels_eq (f : PhyStatusFile) (m k : Nat) (h1 : k + m ≤ f.channelStatusIdentifier.length)
    (h2 : k + m ≤ f.channelNoiseFloor.length) :
    channels f (List.range' k m) =
      .ok (entries (((f.channelStatusIdentifier.zip f.channelNoiseFloor).drop k).take m)) := by
  induction m generalizing k with
  | zero => rfl
  | succ m ih =>
    rw [List.range'_succ, channels]
    have hk : k < f.channelStatusIdentifier.length := by omega
    have hk' : k < f.channelNoiseFloor.length := by omega
    have hz : k < (f.channelStatusIdentifier.zip f.channelNoiseFloor).length := by
      rw [List.length_zip]; omega
    rw [List.drop_eq_getElem_cons hz, List.take_succ_cons, List.getElem_zip]
    simp only [index, List.getElem?_eq_getElem hk, List.getElem?_eq_getElem hk', channelStatus_eq, entry_eq,
      ih (k + 1) (by omega) (by omega), bind, Except.bind, pure, Except.pure]
    rw [entries_cons]
    simp only [List.append_assoc, List.nil_append]

theorem channels_error (f : PhyStatusFile) (m k : Nat)
    (h : f.channelStatusIdentifier.length < k + m ∨ f.channelNoiseFloor.length < k + m) (hm : 0 < m) :
    channels f (List.range' k m) = .error .indexError := by
  induction m generalizing k with
  | zero => omega
  | succ m ih =>
    rw [List.range'_succ, channels]
    simp only [index]
    cases h1 : f.channelStatusIdentifier[k]? with
    | none => rfl
    | some c =>
      cases h2 : f.channelNoiseFloor[k]? with
      | none =>
        simp only [channelStatus_eq, bind, Except.bind]
      | some v =>
        have hk := (List.getElem?_eq_some_iff.1 h1).1
        have hk' := (List.getElem?_eq_some_iff.1 h2).1
        simp only [channelStatus_eq, entry_eq, bind, Except.bind, ih (k + 1) (by omega) (by omega)]

theorem entries_injective {l l' : List (ChannelStatusIdentifier × Int)} (hl : l.length = l'.length)
    (h : entries l = entries l') : l = l' := by
  induction l generalizing l' with
  | nil => cases l' with
    | nil => rfl
    | cons x l' => cases hl
  | cons x l ih =>
    cases l' with
    | nil => cases hl
    | cons y l' =>
      obtain ⟨c, v⟩ := x
      obtain ⟨d, w⟩ := y
      rw [entries_cons, entries_cons] at h
      replace h := List.append_cancel_left h
      obtain ⟨e1, h⟩ := field_append band_word band_injective (by stops) (by stops)
        (List.append_cancel_left h)
      obtain ⟨e2, h⟩ := field_append bandwidth_word bandwidth_injective (by stops) (by stops)
        (List.append_cancel_left h)
      obtain ⟨e3, h⟩ := dec_append (by stops) (by stops) (List.append_cancel_left h)
      obtain ⟨e4, h⟩ := dec_append (by stops) (by stops) (List.append_cancel_left h)
      have := ih (by simpa using hl) (List.append_cancel_left h)
      have : c = d := by cases c; cases d; simp_all
      simp_all

theorem entries_end (l : List (ChannelStatusIdentifier × Int)) (h : l ≠ []) :
    ∃ t, entries l = t ++ "; ".toList := by
  induction l with
  | nil => exact absurd rfl h
  | cons x l ih =>
    obtain ⟨c, v⟩ := x
    have key : ∀ a b c' d e f g k t : Text, a ++ (b ++ (c' ++ (d ++ (e ++ (f ++ (g ++ (k ++ (t ++
        "; ".toList)))))))) = (a ++ (b ++ (c' ++ (d ++ (e ++ (f ++ (g ++ (k ++ t)))))))) ++ "; ".toList := by
      intros; simp only [List.append_assoc]
    rw [entries_cons]
    by_cases hl : l = []
    · subst hl
      exact ⟨_, key _ _ _ _ _ _ _ _ _⟩
    · obtain ⟨t, ht⟩ := ih hl
      rw [ht, ← List.append_assoc "; ".toList, ← List.append_assoc (dec v)]
      exact ⟨_, key _ _ _ _ _ _ _ _ _⟩

/-- Cutting off the last two characters loses nothing. -/
theorem entries_cut {l l' : List (ChannelStatusIdentifier × Int)} (hl : l.length = l'.length)
    (h : (entries l).take ((entries l).length - 2) = (entries l').take ((entries l').length - 2)) : l = l' := by
  by_cases h0 : l = []
  · subst h0
    cases l' with
    | nil => rfl
    | cons x l' => cases hl
  · have h0' : l' ≠ [] := by
      rintro rfl
      cases l with
      | nil => exact h0 rfl
      | cons x l => cases hl
    obtain ⟨t, ht⟩ := entries_end l h0
    obtain ⟨t', ht'⟩ := entries_end l' h0'
    apply entries_injective hl
    rw [ht, ht'] at h ⊢
    have cut : ∀ t : Text, (t ++ "; ".toList).take ((t ++ "; ".toList).length - 2) = t := by
      intro t
      rw [List.length_append, show "; ".toList.length = 2 from rfl, Nat.add_sub_cancel, List.take_left]
    rw [cut, cut] at h
    rw [h]

end Verif.Print
