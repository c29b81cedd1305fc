import Verif.Spec.Labels
import Verif.Lemmas.PrintLines
import Verif.Lemmas.PrintSame

/-! Helper lemmas for C95. -/

namespace Verif.Labels

open Verif Print

/-! ### Numerals -/

/-- One step of the reading of a numeral. -/
abbrev step (b : Nat) (a : Nat) (c : Char) : Option Nat := do
  let d ← digit c
  if d < b then some (a * b + d) else Option.none

theorem digit_digitChar : ∀ d : Fin 16, digit (Nat.digitChar d) = some d.val := by decide

theorem digitChar_zero : ∀ d : Fin 16, Nat.digitChar d = '0' → d = 0 := by decide

theorem step_digit {b a d : Nat} (hb : b ≤ 16) (hd : d < b) : step b a (Nat.digitChar d) = some (a * b + d) := by
  have := digit_digitChar ⟨d, by omega⟩
  unfold step
  simp only at this
  rw [this]
  simp [hd]

theorem toDigits_read {b : Nat} (h1 : 1 < b) (hb : b ≤ 16) (n : Nat) :
    (Nat.toDigits b n).foldlM (step b) 0 = some n := by
  induction n using Nat.strongRecOn with
  | ind n ih =>
    rw [Nat.toDigits_eq_if h1]
    split
    · next h =>
      rw [List.foldlM_cons, step_digit hb h]
      simp
    · next h =>
      rw [List.foldlM_append, ih (n / b) (Nat.div_lt_self (by omega) h1)]
      simp only [bind, Option.bind, List.foldlM_cons]
      rw [step_digit hb (Nat.mod_lt _ (by omega))]
      simp only [List.foldlM_nil, pure, Option.some.injEq]
      exact Nat.div_add_mod' n b

theorem toDigits_head {b : Nat} (h1 : 1 < b) (hb : b ≤ 16) (n : Nat)
    (h : (Nat.toDigits b n).head? = some '0') : n = 0 := by
  induction n using Nat.strongRecOn with
  | ind n ih =>
    rw [Nat.toDigits_eq_if h1] at h
    split at h
    · next hn =>
      have := digitChar_zero ⟨n, by omega⟩ (by simpa using h)
      exact congrArg Fin.val this
    · next hn =>
      have hh : ∀ (l r : Text), l ≠ [] → (l ++ r).head? = l.head? := by
        intro l r hl
        cases l with
        | nil => exact (hl rfl).elim
        | cons _ _ => rfl
      rw [hh _ _ Nat.toDigits_ne_nil] at h
      have := ih (n / b) (Nat.div_lt_self (by omega) h1) h
      rw [Nat.div_eq_zero_iff] at this
      omega

theorem isNumeral {b : Nat} (h1 : 1 < b) (hb : b ≤ 16) (n : Nat) : IsNumeral b n (Nat.toDigits b n) := by
  refine ⟨Nat.toDigits_ne_nil, fun h => ?_, toDigits_read h1 hb n⟩
  rw [toDigits_head h1 hb n h, Nat.toDigits_eq_if h1, if_pos (by omega)]
  rfl

theorem isInt (v : Int) : IsInt v (dec v) := by
  unfold IsInt
  cases v with
  | ofNat n =>
    rw [if_pos (show (0 : Int) ≤ Int.ofNat n from Int.natCast_nonneg n)]
    exact isNumeral (by omega) (by omega) n
  | negSucc n =>
    rw [if_neg (by omega)]
    exact ⟨_, rfl, isNumeral (by omega) (by omega) _⟩

theorem isHex (v : Int) : IsHex v (hex v) := by
  refine ⟨_, isNumeral (by omega) (by omega) v.toNat, ?_⟩
  unfold hex
  have e : ((2 : Int) ^ 63) = 9223372036854775808 := by decide
  rw [e]
  by_cases h : v < 9223372036854775808
  · rw [if_neg (by omega), if_pos h]; rfl
  · rw [if_pos (by omega), if_neg h]; rfl

theorem isThree (v : Int) : IsThree v (format3 v.toNat) := ⟨_, isNumeral (by omega) (by omega) _, rfl⟩

theorem numeral_unique {b n m : Nat} {w : Text} (h : IsNumeral b n w) (h' : IsNumeral b m w) : n = m :=
  Option.some.inj (h.2.2.symm.trans h'.2.2)

theorem numeral_sign {b n : Nat} {d : Text} (h : IsNumeral b n ('-' :: d)) : False := by
  have := h.2.2
  rw [List.foldlM_cons] at this
  have hd : digit '-' = Option.none := by decide
  simp [hd] at this

theorem int_unique {v v' : Int} {w : Text} (h : IsInt v w) (h' : IsInt v' w) : v = v' := by
  unfold IsInt at h h'
  split at h <;> split at h'
  · have := numeral_unique h h'
    omega
  · obtain ⟨d, rfl, -⟩ := h'
    exact (numeral_sign h).elim
  · obtain ⟨d, rfl, -⟩ := h
    exact (numeral_sign h').elim
  · obtain ⟨d, rfl, h⟩ := h
    obtain ⟨d', e, h'⟩ := h'
    cases e
    have := numeral_unique h h'
    omega

theorem numeral_digits {b n : Nat} {w : Text} (h : IsNumeral b n w) : ∀ c ∈ w, (digit c).isSome := by
  have key : ∀ (w : Text) (a : Nat), w.foldlM (step b) a = some n → ∀ c ∈ w, (digit c).isSome := by
    intro w
    induction w with
    | nil => intro a _ c hc; cases hc
    | cons x w ih =>
      intro a h c hc
      rw [List.foldlM_cons] at h
      cases hd : digit x with
      | none => simp [hd] at h
      | some d =>
        by_cases hb : d < b
        · have e : step b a x = some (a * b + d) := by simp [step, hd, hb]
          rw [e] at h
          rcases List.mem_cons.1 hc with rfl | hc
          · simp [hd]
          · exact ih _ h c hc
        · have e : step b a x = Option.none := by simp [step, hd, hb]
          rw [e] at h
          cases h
  exact key w 0 h.2.2

theorem hex_unique {v v' : Int} {w : Text} (hv : 0 ≤ v) (hv' : 0 ≤ v') (h : IsHex v w) (h' : IsHex v' w) :
    v = v' := by
  obtain ⟨d, hd, rfl⟩ := h
  obtain ⟨d', hd', e⟩ := h'
  have hL : digit 'L' = Option.none := by decide
  rw [List.append_assoc, List.append_assoc] at e
  have e := List.append_cancel_left e
  have e' : d = d' := by
    split at e <;> split at e
    · simpa using e
    · exfalso
      have := numeral_digits hd 'L' (by rw [← List.append_nil d, e]; simp)
      rw [hL] at this; cases this
    · exfalso
      have := numeral_digits hd' 'L' (by rw [← List.append_nil d', ← e]; simp)
      rw [hL] at this; cases this
    · exact List.append_cancel_right e
  subst e'
  have := numeral_unique hd hd'
  omega

/-! ### Layouts -/

theorem labelled_cons {s : String} {p : Text → Prop} {r : List (String × (Text → Prop))} {w t : Text}
    (h : p w) (h' : Labelled r t) : Labelled ((s, p) :: r) (s.toList ++ (w ++ t)) := ⟨_, _, rfl, h, h'⟩

theorem labelled_bare {p : Text → Prop} {r : List (String × (Text → Prop))} {w t : Text}
    (h : p w) (h' : Labelled r t) : Labelled (("", p) :: r) (w ++ t) := ⟨_, _, rfl, h, h'⟩

theorem labelled_end {s : String} {r : List (String × (Text → Prop))} {t : Text}
    (h' : Labelled r t) : Labelled ((s, Is "") :: r) (s.toList ++ t) := ⟨[], _, rfl, rfl, h'⟩

theorem labelled_nil : Labelled [] [] := rfl

/-! ### Names -/

theorem named_flag (b : Bool) : Named flags b (Print.bool b) := by
  cases b <;> exact ⟨_, by decide, rfl⟩

theorem named_band (b : ChannelBand) : Named bands b (lstrip b.name "BAND_".toList) := by
  cases b
  · exact ⟨"OT_IMPL", by decide, by decide⟩
  · exact ⟨"433", by decide, by decide⟩
  · exact ⟨"868", by decide, by decide⟩
  · exact ⟨"915", by decide, by decide⟩

theorem named_class (b : ChannelClass) : Named classes b b.toChar := by
  cases b
  · exact ⟨"L", by decide, by decide⟩
  · exact ⟨"L", by decide, by decide⟩
  · exact ⟨"N", by decide, by decide⟩
  · exact ⟨"H", by decide, by decide⟩

theorem named_coding (b : ChannelCoding) : Named codings b b.toChar := by
  cases b
  · exact ⟨"P", by decide, by decide⟩
  · exact ⟨"R", by decide, by decide⟩
  · exact ⟨"F", by decide, by decide⟩
  · exact ⟨"C", by decide, by decide⟩

theorem named_bandwidth (b : Bandwidth) : Named bandwidths b (bandwidth b) := by
  cases b <;> exact ⟨_, by decide, rfl⟩

theorem named_idType (b : IdType) : Named idTypes b (idType b) := by
  cases b <;> exact ⟨_, by decide, rfl⟩

theorem named_condition (b : ActionCondition) : Named actionConditions b (actionCondition b) := by
  cases b <;> exact ⟨_, by decide, rfl⟩

theorem named_storage (b : StorageClass) : Named storageClasses b (storageClass b) := by
  cases b <;> exact ⟨_, by decide, rfl⟩

theorem named_interface (b : InterfaceType) : Named interfaces b (interfaceType b) := by
  cases b <;> exact ⟨_, by decide, rfl⟩

theorem named_mode (b : EngineeringModeMode) : Named modes b b.str.toList := by
  cases b <;> exact ⟨_, by decide, rfl⟩

/-! ### Objects -/

theorem ofCt {c : CT} {t : Text} (h : ct c = .ok t) : OfCt c t := by
  rw [ct_eq] at h
  cases h
  exact labelled_cons (isInt _) (labelled_cons (isInt _) labelled_nil)

theorem ofHeaderText (h : ChannelHeader) : OfChannelHeader h h.str := by
  unfold ChannelHeader.str
  rw [List.append_assoc, ← List.append_nil (h.channelCoding.toChar)]
  exact labelled_bare (named_band _) (labelled_bare (named_class _) (labelled_bare (named_coding _) labelled_nil))

theorem ofChannelID (c : ChannelID) : OfChannelID c c.str := by
  unfold ChannelID.str
  rw [← List.append_nil (format3 _)]
  exact labelled_bare (ofHeaderText _) (labelled_bare (isThree _) labelled_nil)

theorem ofSubBand {c : SubBand} {t : Text} (h : subBand c = .ok t) : OfSubBand c t := by
  rw [subBand_eq] at h
  cases h
  exact labelled_cons (isInt _) (labelled_cons (isInt _) (labelled_cons (isInt _) (labelled_cons (isInt _)
    (labelled_cons (isInt _) labelled_nil))))

theorem ofChannelStatus {c : ChannelStatusIdentifier} {t : Text} (h : channelStatusIdentifier c = .ok t) :
    OfChannelStatus c t := by
  rw [channelStatus_eq] at h
  cases h
  exact labelled_cons (named_band _) (labelled_cons (named_bandwidth _) (labelled_cons (isInt _) labelled_nil))

theorem ofId {c : AddrId} {t : Text} (h : addrId c = .ok t) : OfId c t := by
  cases c with
  | none => cases h; exact rfl
  | int i => cases h; exact isInt i
  | ct c => exact ofCt h

theorem ofAddressee {a : Addressee} {t : Text} (h : addressee a = .ok t) : OfAddressee a t := by
  obtain ⟨i, hi, ha⟩ := addressee_ok a
  cases ha.symm.trans h
  exact labelled_cons (isInt _) (labelled_cons (named_idType _) (labelled_cons (ofId hi) labelled_nil))

theorem ofStatus {s : Status} {t : Text} (h : status s = .ok t) : OfStatus s t := by
  obtain ⟨a, c, ha, hc, hs⟩ := status_ok s
  cases hs.symm.trans h
  exact labelled_cons (named_flag _) (labelled_cons (named_flag _) (labelled_cons (named_flag _)
    (labelled_cons (named_flag _) (labelled_cons (isInt _) (labelled_cons (isInt _) (labelled_cons (isInt _)
    (labelled_cons (isInt _) (labelled_cons (ofAddressee ha) (labelled_cons (ofCt hc) (labelled_cons (isInt _)
    (labelled_cons (ofChannelID _) labelled_nil)))))))))))

theorem ofOption {α : Type} {f : α → Except PyErr Text} {p : α → Text → Prop}
    (hp : ∀ {a t}, f a = .ok t → p a t) {o : Option α} {t : Text} (h : optional f o = .ok t) : OfOption p o t := by
  cases o with
  | none => cases h; exact rfl
  | some a => exact hp h

theorem ofProperties {p : FileProperties} {t : Text} (h : properties p = .ok t) : OfProperties p t := by
  rw [properties_eq] at h
  cases h
  exact labelled_cons (named_flag _) (labelled_cons (named_condition _) (labelled_cons (named_storage _)
    labelled_nil))

theorem ofHeader {f : FileHeader} {t : Text} (h : fileHeader f = .ok t) : OfHeader f t := by
  obtain ⟨p, hp, hf⟩ := fileHeader_eq f
  cases hf.symm.trans h
  exact labelled_end (labelled_cons (ofProperties hp) (labelled_cons (isInt _) (labelled_cons (isInt _)
    (labelled_cons (isInt _) (labelled_cons (isInt _) labelled_nil)))))

theorem ofHeaderOperand {o : FileHeaderOperand} {t : Text} (h : fileHeaderOperand o = .ok t) :
    OfHeaderOperand o t := by
  obtain ⟨p, hp, hf⟩ := fileHeaderOperand_eq o
  cases hf.symm.trans h
  exact labelled_cons (isInt _) (labelled_cons (ofHeader hp) labelled_nil)

theorem ofItems (l : List Int) : Joined ", " IsInt l (items l) := by
  induction l with
  | nil => exact rfl
  | cons v l ih =>
    cases l with
    | nil => exact isInt v
    | cons w l => exact ⟨_, _, rfl, isInt v, ih⟩

theorem ofRequest {d : DataRequest} {t : Text} (h : dataRequest d = .ok t) : OfRequest d t := by
  obtain ⟨o, ho, hd⟩ := dataRequest_eq d
  cases hd.symm.trans h
  rw [offset_eq] at ho
  cases ho
  simp only [List.append_assoc, List.nil_append]
  exact labelled_cons (isInt _) (labelled_cons (isInt _) (labelled_cons (isInt _) labelled_nil))

theorem ofData {d : Data} {t : Text} (h : data d = .ok t) : OfData d t := by
  obtain ⟨o, ho, hd⟩ := data_eq d
  cases hd.symm.trans h
  rw [offset_eq] at ho
  cases ho
  simp only [List.append_assoc, List.nil_append]
  refine labelled_cons (isInt _) (labelled_cons (isInt _) (labelled_cons (isInt _) ?_))
  have e : ", data=".toList ++ (list d.data ++ []) = ", data=[".toList ++ (items d.data ++ ("]".toList ++ [])) := by
    simp [list]
  rw [e]
  exact labelled_cons (ofItems _) (labelled_end labelled_nil)

theorem ofConfig (e : Env) (c : Option IfaceConfig) : OfConfig e c (config e c) := by
  rcases c with _ | c | c | c <;> exact rfl

theorem ofInterface {e : Env} {c : InterfaceConfiguration} {t : Text} (h : interfaceConfiguration e c = .ok t) :
    OfInterface e c t := by
  rw [interfaceConfiguration_eq] at h
  cases h
  exact labelled_cons (named_interface _) (labelled_cons (ofConfig _ _) labelled_nil)

theorem fileId_eq (o : FileIdOperand) : fileId o = .ok ("file-id=".toList ++ (dec o.fileId ++ [])) := rfl

theorem tagId_eq (o : TagId) : tagId o = .ok ("tag_id=".toList ++ (dec o.tagId ++ [])) := rfl

theorem ofOperand {e : Env} {o : Operation} {t : Text} (h : operand e o = .ok t) : OfOperand e o t := by
  cases o with
  | nop => cases h; exact rfl
  | readFileData o => exact ofRequest h
  | readFileHeader o => cases (fileId_eq o).symm.trans h; exact labelled_cons (isInt _) labelled_nil
  | writeFileData o => exact ofData h
  | writeFileHeader o => exact ofHeaderOperand h
  | breakQuery o => cases h; exact rfl
  | createNewFile o => exact ofHeaderOperand h
  | returnFileData o => exact ofData h
  | returnFileHeader o => exact ofHeaderOperand h
  | interfaceStatus o =>
    obtain ⟨p, hp, ho⟩ := interfaceStatus_eq o
    cases ho.symm.trans h
    exact labelled_cons (isInt _) (labelled_cons (ofOption ofStatus hp) labelled_nil)
  | tagResponse o => cases (tagId_eq o).symm.trans h; exact labelled_cons (isInt _) labelled_nil
  | forward o => exact ofInterface h
  | indirectForward o =>
    obtain ⟨p, hp, ho⟩ := indirectInterface_eq o
    cases ho.symm.trans h
    exact labelled_cons (isInt _) (labelled_cons (ofOption ofAddressee hp) labelled_nil)
  | tagRequest o => cases (tagId_eq o).symm.trans h; exact labelled_cons (isInt _) labelled_nil

theorem name_eq (o : Operation) : className o = (operationName o).toList := by
  cases o <;> rfl

theorem ofOperation {e : Env} {o : Operation} {t : Text} (h : operation e o = .ok t) : OfOperation e o t := by
  obtain ⟨x, hx⟩ := operand_some e o
  cases (operation_eq hx).symm.trans h
  have e : x = x ++ [] := (List.append_nil x).symm
  rw [e]
  exact labelled_bare (name_eq o) (labelled_cons (ofOperand hx) labelled_nil)

/-! ### System files -/

theorem ofConcat {α : Type} {f : α → Except PyErr Text} {p : α → Text → Prop}
    (hp : ∀ {a t}, f a = .ok t → p a t) {l : List α} {t : Text} (h : concat f l = .ok t) : Each p l t := by
  induction l generalizing t with
  | nil => cases h; exact rfl
  | cons a l ih =>
    unfold concat at h
    cases h1 : f a with
    | error e => rw [h1] at h; cases h
    | ok x =>
      cases h2 : concat f l with
      | error e => rw [h1, h2] at h; cases h
      | ok y =>
        rw [h1, h2] at h
        cases h
        exact ⟨_, _, rfl, hp h1, ih h2⟩

theorem ofAccessProfile {e : Env} {a : AccessProfile} {t : Text} (h : accessProfile e a = .ok t) :
    OfAccessProfile e a t := by
  obtain ⟨x, hx⟩ := concat_some (f := fun s => .ok (e.subProfile s)) (fun s => ⟨_, rfl⟩) a.subProfiles
  obtain ⟨y, hy⟩ := concat_some (f := subBand) (fun s => ⟨_, subBand_eq s⟩) a.subBands
  unfold accessProfile at h
  simp only [hx, hy, bind, Except.bind] at h
  set_option maxRecDepth 8000 in
  have key : ∀ z x y : Text, format "channel_header={}, sub_profiles={}, sub_bands={}".toList [z, x, y] =
    .ok ("channel_header=".toList ++ (z ++ (", sub_profiles=".toList ++ (x ++ (", sub_bands=".toList ++
      (y ++ [])))))) := fun _ _ _ => rfl
  cases (key _ _ _).symm.trans h
  exact labelled_cons (ofHeaderText _) (labelled_cons (ofConcat (fun h => (Except.ok.inj h).symm) hx)
    (labelled_cons (ofConcat ofSubBand hy) labelled_nil))

theorem ofEntries (l : List (ChannelStatusIdentifier × Int)) :
    Joined "; " OfEntry l ((entries l).take ((entries l).length - 2)) := by
  induction l with
  | nil => exact rfl
  | cons p l ih =>
    obtain ⟨c, v⟩ := p
    have hw : ∀ x : Text, OfEntry (c, v) ("identifier=".toList ++ (("channel_band=".toList ++
        (lstrip c.channelBand.name "BAND_".toList ++ (", channel_bandwidth=".toList ++
        (bandwidth c.channelBandwidth ++ (", channel_index=".toList ++ (dec c.channelIndex ++ [])))))) ++
        (", noise_floor=".toList ++ (dec v ++ [])))) := fun _ =>
      labelled_cons (ofChannelStatus (channelStatus_eq c)) (labelled_cons (isInt _) labelled_nil)
    replace hw := hw []
    have he : entries ((c, v) :: l) = ("identifier=".toList ++ (("channel_band=".toList ++
        (lstrip c.channelBand.name "BAND_".toList ++ (", channel_bandwidth=".toList ++
        (bandwidth c.channelBandwidth ++ (", channel_index=".toList ++ (dec c.channelIndex ++ [])))))) ++
        (", noise_floor=".toList ++ (dec v ++ [])))) ++ ("; ".toList ++ entries l) := by
      rw [entries_cons]
      simp only [List.append_assoc, List.nil_append]
    generalize ("identifier=".toList ++ _ : Text) = w at hw he
    rw [he]
    cases l with
    | nil =>
      have key : ∀ x : Text, x.length = 2 → (w ++ (x ++ [])).take ((w ++ (x ++ [])).length - 2) = w := by
        intro x hx
        rw [List.append_nil, List.length_append, hx, Nat.add_sub_cancel, List.take_left]
      have h2 : "; ".toList.length = 2 := rfl
      have h3 := key "; ".toList h2
      generalize "; ".toList = x at h3 ⊢
      show OfEntry (c, v) ((w ++ (x ++ [])).take ((w ++ (x ++ [])).length - 2))
      rw [h3]
      exact hw
    | cons q l =>
      have h2 : 2 ≤ (entries (q :: l)).length := by
        obtain ⟨c, v⟩ := q
        rw [entries_cons]
        simp only [List.length_append]
        have : "; ".toList.length = 2 := rfl
        omega
      refine ⟨w, (entries (q :: l)).take ((entries (q :: l)).length - 2), ?_, hw, ih⟩
      have e1 : (w ++ ("; ".toList ++ entries (q :: l))).length - 2 =
          (w ++ "; ".toList).length + ((entries (q :: l)).length - 2) := by
        simp only [List.length_append]
        have : "; ".toList.length = 2 := rfl
        omega
      rw [e1, ← List.append_assoc, List.take_length_add_append, List.append_assoc]

theorem ascii_chars {s : List Nat} {t : Text} (h : ascii s = .ok t) : t.map Char.toNat = s := by
  have hs := (ascii_iff s).1 ⟨t, h⟩
  unfold ascii at h
  rw [if_pos hs] at h
  cases h
  rw [List.map_map]
  conv_rhs => rw [← List.map_id s]
  refine List.map_congr_left fun c hc => ?_
  have := hs c hc
  have key : ∀ n : Fin 128, (Char.ofNat n).toNat = n := by decide
  exact key ⟨c, this⟩

/-- A template: literals, each followed by a placeholder, and a last one. -/
def template : List Text → Text → Text
  | [], last => last
  | l :: ls, last => l ++ '{' :: '}' :: template ls last

/-- The same with the placeholders filled. -/
def weave : List Text → List Text → Text → Text
  | l :: ls, a :: as, last => l ++ (a ++ weave ls as last)
  | _, _, last => last

/-- No braces. -/
def literal (l : Text) : Bool := l.all fun c => c != '{' && c != '}'

theorem format_literal {l : Text} (h : literal l = true) (t : Text) (as : List Text) :
    format (l ++ t) as = (l ++ ·) <$> format t as := by
  induction l with
  | nil =>
    rw [List.nil_append]
    cases format t as <;> rfl
  | cons c l ih =>
    simp only [literal, List.all_cons, Bool.and_eq_true, bne_iff_ne] at h
    rw [List.cons_append, format_cons (fun _ x => h.1.1 x.1) (fun _ x => h.1.1 x.1) (fun _ x => h.1.2 x.1), ih h.2]
    cases format t as <;> rfl

theorem format_template {ls : List Text} {last : Text} (h : ls.all literal = true) (hl : literal last = true) :
    ∀ as : List Text, as.length = ls.length → format (template ls last) as = .ok (weave ls as last) := by
  induction ls with
  | nil =>
    intro as _
    have := format_literal hl [] as
    rw [List.append_nil] at this
    rw [template, this]
    have : weave [] as last = last ++ [] := by cases as <;> simp [weave]
    rw [this]
    rfl
  | cons l ls ih =>
    intro as ha
    cases as with
    | nil => cases ha
    | cons a as =>
      simp only [List.all_cons, Bool.and_eq_true] at h
      rw [template, format_literal h.1, format, ih h.2 as (by simpa using ha)]
      rfl

/-- The literals of the factory settings. -/
def factoryLabels : List Text :=
  ["gain=".toList, ", rx_bw_low_rate=".toList, ", rx_bw_normal_rate=".toList, ", rx_bw_high_rate=".toList,
   ", low rate=".toList, " : ".toList, ", normal rate=".toList, " : ".toList, ", high rate=".toList,
   " : ".toList, ", preamble sizes ".toList, " : ".toList, " : ".toList, ", preamble detector size ".toList,
   " : ".toList, " : ".toList, " with tol ".toList, " : ".toList, " : ".toList, ", rssi smoothing ".toList,
   " with offset ".toList, "\nlora sf set to ".toList, ", bw to ".toList, "\ngaussian set to ".toList,
   " and paramp to ".toList]

theorem factory_eq (f : FactorySettingsFile) : factorySettingsFile f = .ok (weave factoryLabels
    [dec f.gain, dec f.rxBwLow, dec f.rxBwNormal, dec f.rxBwHigh, dec f.bitrateLo, dec f.fdevLo,
     dec f.bitrateNormal, dec f.fdevNormal, dec f.bitrateHi, dec f.fdevHi, dec f.preambleSizeLo,
     dec f.preambleSizeNormal, dec f.preambleSizeHi, dec f.preambleDetectorSizeLo,
     dec f.preambleDetectorSizeNormal, dec f.preambleDetectorSizeHi, dec f.preambleTolLo,
     dec f.preambleTolNormal, dec f.preambleTolHi, dec f.rssiSmoothing, dec f.rssiOffset, dec f.loraBw,
     dec f.loraSF, dec f.gaussian, dec f.paramp]
    " microseconds".toList) := by
  have key := format_template (ls := factoryLabels) (last := " microseconds".toList) (by decide +kernel)
    (by decide +kernel)
    [dec f.gain, dec f.rxBwLow, dec f.rxBwNormal, dec f.rxBwHigh, dec f.bitrateLo, dec f.fdevLo,
     dec f.bitrateNormal, dec f.fdevNormal, dec f.bitrateHi, dec f.fdevHi, dec f.preambleSizeLo,
     dec f.preambleSizeNormal, dec f.preambleSizeHi, dec f.preambleDetectorSizeLo,
     dec f.preambleDetectorSizeNormal, dec f.preambleDetectorSizeHi, dec f.preambleTolLo,
     dec f.preambleTolNormal, dec f.preambleTolHi, dec f.rssiSmoothing, dec f.rssiOffset, dec f.loraBw,
     dec f.loraSF, dec f.gaussian, dec f.paramp] rfl
  rw [← key]
  have e : template factoryLabels " microseconds".toList =
      ("gain={}, rx_bw_low_rate={}, rx_bw_normal_rate={}, rx_bw_high_rate={}, low rate={} : {}, "
    ++ "normal rate={} : {}, high rate={} : {}, preamble sizes {} : {} : {}, "
    ++ "preamble detector size {} : {} : {} with tol {} : {} : {}, rssi smoothing {} with offset {}\n"
    ++ "lora sf set to {}, bw to {}\ngaussian set to {} and paramp to {} microseconds").toList := by decide +kernel
  rw [e]
  rfl

theorem ofFile {e : Env} {f : SystemFile} {t : Text} (hp : Plain f) (h : systemFile e f = .ok t) :
    OfFile e f t := by
  cases f with
  | uid f => cases (uid_eq f).symm.trans h; exact labelled_cons (isHex _) labelled_nil
  | factorySettings f =>
    cases (factory_eq f).symm.trans h
    iterate 25 refine labelled_cons (isInt _) ?_
    exact labelled_end labelled_nil
  | firmwareVersion f =>
    obtain ⟨n, s, hn, hs, rfl⟩ := firmware_eq h
    exact labelled_cons (isInt _) (labelled_cons (s := ".") (isInt _) (labelled_cons (isInt _)
      (labelled_cons (s := ".") (isInt _) (labelled_cons (p := fun w => w.map Char.toNat = f.applicationName)
      (ascii_chars hn) (labelled_cons (p := fun w => w.map Char.toNat = f.gitSha1) (ascii_chars hs) labelled_nil)))))
  | engineeringMode f =>
    cases (mode_eq f).symm.trans h
    exact labelled_cons (named_mode _) (labelled_cons (isHex _) (labelled_cons (isInt _)
      (labelled_cons (ofChannelID _) (labelled_cons (isInt _) labelled_nil))))
  | vid f => cases (vid_eq f).symm.trans h; exact labelled_cons (isHex _) (labelled_cons (isHex _) labelled_nil)
  | phyStatus f =>
    obtain ⟨x, rfl, hx⟩ := phy_eq f hp.1 hp.2
    cases hx.symm.trans h
    exact labelled_cons (isInt _) (labelled_cons (isInt _) (labelled_cons (isInt _) (labelled_cons (isInt _)
      (labelled_cons (isInt _) (labelled_cons (ofEntries _) (labelled_end labelled_nil))))))
  | dllConfig f =>
    cases (dllConfig_eq f).symm.trans h
    exact labelled_cons (isInt _) (labelled_cons (isInt _) (labelled_cons (isInt _) (labelled_end labelled_nil)))
  | dllStatus f =>
    cases (dllStatus_eq f).symm.trans h
    exact labelled_cons (isInt _) (labelled_cons (isInt _) (labelled_cons (isInt _) (labelled_cons (ofHeaderText _)
      (labelled_bare (isInt _) (labelled_cons (isInt _) (labelled_cons (isInt _) (labelled_cons (isInt _)
      labelled_nil)))))))
  | securityKey f => cases (key_eq f.key).symm.trans h; exact labelled_cons (isInt _) labelled_nil
  | rootKey f => cases (key_eq f.key).symm.trans h; exact labelled_cons (isInt _) labelled_nil
  | userKey f => cases (key_eq f.key).symm.trans h; exact labelled_cons (isInt _) labelled_nil
  | accessProfile f =>
    obtain ⟨x, hx⟩ := optional_some (accessProfile_some e) f.accessProfile
    replace h : accessProfileFile e f = .ok t := h
    unfold accessProfileFile at h
    simp only [hx, bind, Except.bind] at h
    set_option maxRecDepth 8000 in
    have key : ∀ z x : Text, format "active_specifier={}, access_profile={}".toList [z, x] =
      .ok ("active_specifier=".toList ++ (z ++ (", access_profile=".toList ++ (x ++ [])))) := fun _ _ => rfl
    cases (key _ _).symm.trans h
    exact labelled_cons (isInt _) (labelled_cons (ofOption ofAccessProfile hx) labelled_nil)
  | interfaceConfiguration f =>
    replace h : interfaceConfigurationFile e f = .ok t := h
    unfold interfaceConfigurationFile at h
    have hi := interfaceConfiguration_eq e f.interfaceConfiguration
    generalize ("interface-id=".toList ++ _ : Text) = x at hi
    simp only [hi, bind, Except.bind] at h
    have key : ∀ x : Text, format "interface_configuration = {}".toList [x] =
      .ok ("interface_configuration = ".toList ++ (x ++ [])) := fun _ => rfl
    cases (key _).symm.trans h
    exact labelled_cons (ofInterface hi) labelled_nil
  | notImplemented f => cases h; exact rfl

/-! ### Actions and commands -/

theorem fileName_eq (f : SystemFile) : fileClassName f = (fileName f).toList := by
  cases f <;> rfl

theorem received_or {d : Data} {r : ReturnFileData} (h : ReturnFileData.new d = .ok r) :
    (r.systemfileType = Option.none ∧ r.fileDataParsed = Option.none) ∨
    ∃ t f, r.systemfileType = some t ∧ r.fileDataParsed = some f := by
  unfold ReturnFileData.new at h
  split at h
  · cases h
  · next t' f' h' =>
    cases h
    unfold ReturnFileData.tryParseSystemFile ReturnFileData.tryParse at h'
    repeat' split at h'
    all_goals first
      | (cases h'; done)
      | (cases h'; exact .inl ⟨rfl, rfl⟩)
      | (cases h'; exact .inr ⟨_, _, rfl, rfl⟩)

/-- The text of an action that is not an interface status. -/
def Plainly (e : Env) (o : Operation) (t : Text) : Prop :=
  (∃ d r f, o = .returnFileData d ∧ ReturnFileData.new d = .ok r ∧ r.fileDataParsed = some f ∧
    Labelled [("Received ", Is (fileName f)), (" content: ", OfFile e f)] t) ∨
  ((∀ d r f, o = .returnFileData d → ReturnFileData.new d = .ok r → r.fileDataParsed ≠ some f) ∧
    OfOperation e o t)

theorem ofPlain {e : Env} {o : Operation} {t : Text} (h : plainAction e o = .ok t) : Plainly e o t := by
  cases o
  case returnFileData d =>
    obtain ⟨r, hr⟩ := returned_some d
    rcases received_or hr with ⟨h1, h2⟩ | ⟨c, f, h1, h2⟩
    · right
      refine ⟨fun d' r' f e1 e2 => ?_, ?_⟩
      · cases e1
        rw [hr] at e2
        cases e2
        rw [h2]
        nofun
      · unfold plainAction at h
        simp only [hr, h1, h2, bind, Except.bind] at h
        exact ofOperation h
    · left
      refine ⟨d, r, f, rfl, hr, h2, ?_⟩
      obtain ⟨bs, s, hp⟩ := returned_parsed hr h1 h2
      obtain ⟨x, hx⟩ := (systemFile_iff e f).2 (file_parsed hp)
      unfold plainAction at h
      simp only [hr, h1, h2, hx, bind, Except.bind] at h
      cases (received_eq _ _).symm.trans h
      exact labelled_cons ((class_parsed hp).trans (fileName_eq f))
        (labelled_cons (ofFile (plain_parsed hp) hx) labelled_nil)
  all_goals exact .inr ⟨fun _ _ _ x => (nomatch x), ofOperation h⟩

theorem ofAction {e : Env} {a : Action} {t : Text} (h : action e a = .ok t) : OfAction e a t := by
  cases a
  case status x o =>
    obtain ⟨y, hy⟩ := operand_some e o
    unfold action at h
    simp only [hy, bind, Except.bind] at h
    have key : format "{}".toList [y] = .ok (y ++ []) := rfl
    cases key.symm.trans h
    rw [List.append_nil]
    exact ofOperand hy
  all_goals exact ofPlain h

theorem ofLines {e : Env} {l : List Action} {ts : List Text} (h : l.mapM (action e) = .ok ts) :
    Each (fun a => Labelled [("\t\taction: ", OfAction e a), ("\n", Is "")]) l (lines ts) := by
  induction l generalizing ts with
  | nil => cases h; exact rfl
  | cons a l ih =>
    rw [List.mapM_cons] at h
    cases h1 : action e a with
    | error x => rw [h1] at h; cases h
    | ok x =>
      cases h2 : l.mapM (action e) with
      | error y => rw [h1, h2] at h; cases h
      | ok y =>
        rw [h1, h2] at h
        cases h
        refine ⟨"\t\taction: ".toList ++ (x ++ ("\n".toList ++ [])), lines y, ?_,
          labelled_cons (ofAction h1) (labelled_end labelled_nil), ih h2⟩
        have key : ∀ a b c d : Text, (∀ z, c ++ z = '\n' :: z) → a ++ (b ++ '\n' :: d) = (a ++ (b ++ (c ++ []))) ++ d := by
          intro a b c d hc
          simp [hc]
        rw [lines_cons]
        exact key _ _ _ _ fun _ => rfl

theorem ofLast {e : Env} {o : Option Action} {u : Option Text} (h : o.mapM (action e) = .ok u) :
    Each (fun a => Labelled [("\tinterface status: ", OfAction e a), ("\n", Is "")]) o.toList (last u) := by
  cases o with
  | none => cases h; exact rfl
  | some a =>
    rw [Option.mapM_some] at h
    cases h1 : action e a with
    | error x => rw [h1] at h; cases h
    | ok x =>
      rw [h1] at h
      cases h
      refine ⟨"\tinterface status: ".toList ++ (x ++ ("\n".toList ++ [])), [], ?_,
        labelled_cons (ofAction h1) (labelled_end labelled_nil), rfl⟩
      exact (List.append_nil _).symm

theorem ofState {c : Command} {t : Text} (h : execution c = .ok t) : OfState c t := by
  unfold execution at h
  unfold OfState
  split at h
  · next hc =>
    rw [if_pos hc]
    split at h
    · cases h
    · next he => cases h; rw [if_pos he]; exact rfl
    · next he => cases h; rw [if_neg (by rw [he]; decide)]; exact rfl
  · next hc => cases h; rw [if_neg hc]; exact rfl

theorem ofCommand {e : Env} {c : Command} {t : Text} (h : command e c = .ok t) : OfCommand e c t := by
  have hs : ∃ s, execution c = .ok s := by
    unfold command at h
    cases hx : execution c with
    | ok s => exact ⟨s, rfl⟩
    | error x => simp only [head_eq, hx, bind, Except.bind] at h; cases h
  obtain ⟨st, hs⟩ := hs
  obtain ⟨ts, o, h1, h2, hc⟩ := command_eq e c hs
  cases hc.symm.trans h
  have ht : OfOption IsInt c.tagId (c.tagId.elim Print.none dec) := by
    cases c.tagId with
    | none => exact rfl
    | some v => exact isInt v
  have hb : ')' :: body ts o = (if c.actions = [] then ")" else ")\n\tactions:\n" : String).toList ++
      (lines ts ++ (last o ++ [])) := by
    have hn := mapM_nil h1
    unfold body
    by_cases hl : c.actions = []
    · rw [if_pos hl, if_pos (hn.2 hl), hn.2 hl, List.append_nil]
      exact rfl
    · rw [if_neg hl, if_neg (fun x => hl (hn.1 x)), List.append_nil]
      generalize lines ts = x
      generalize last o = y
      exact congrArg (')' :: ·) (List.append_assoc _ x y)
  rw [hb]
  exact labelled_cons ht (labelled_cons (s := " (") (ofState hs) (labelled_cons (ofLines h1)
    (labelled_bare (ofLast h2) labelled_nil)))

theorem ofDescribed {e : Env} {l : List Action} {t : Text} (h : described e l = .ok t) :
    Each (fun a => Labelled [("", OfAction e a), (", ", Is "")]) l t := by
  induction l generalizing t with
  | nil => cases h; exact rfl
  | cons a l ih =>
    unfold described at h
    cases h1 : action e a with
    | error x => rw [h1] at h; cases h
    | ok x =>
      have key : format "{}, ".toList [x] = .ok (x ++ (", ".toList ++ [])) := rfl
      cases h2 : described e l with
      | error y => simp only [h1, h2, key, bind, Except.bind] at h; cases h
      | ok y =>
        simp only [h1, h2, key, bind, Except.bind, pure, Except.pure, Except.ok.injEq] at h
        exact ⟨_, _, h.symm, labelled_bare (ofAction h1) (labelled_end labelled_nil), ih h2⟩

theorem drop_split (p : Char → Bool) (l : Text) : ∃ a, l = a ++ l.dropWhile p ∧ (∀ c ∈ a, p c = true) ∧
    ∀ c, (l.dropWhile p).head? = some c → p c = false := by
  induction l with
  | nil => exact ⟨[], rfl, nofun, nofun⟩
  | cons x l ih =>
    by_cases hx : p x = true
    · obtain ⟨a, h1, h2, h3⟩ := ih
      rw [List.dropWhile_cons_of_pos hx]
      refine ⟨x :: a, congrArg (x :: ·) h1, fun c hc => ?_, h3⟩
      rcases List.mem_cons.1 hc with rfl | hc
      · exact hx
      · exact h2 c hc
    · rw [List.dropWhile_cons_of_neg hx]
      refine ⟨[], rfl, nofun, fun c hc => ?_⟩
      cases hc
      simpa using hx

/-- What `strip` leaves and what it takes. -/
theorem strip_spec (t : Text) : ∃ pre post, t = pre ++ (strip t ++ post) ∧
    (∀ c ∈ pre ++ post, c = ',' ∨ c = ' ') ∧
    (∀ c, (strip t).head? = some c ∨ (strip t).getLast? = some c → ¬ (c = ',' ∨ c = ' ')) := by
  unfold strip
  simp only
  generalize hp : (fun c : Char => decide (c = ',' ∨ c = ' ')) = p
  have hpc : ∀ c, p c = true ↔ c = ',' ∨ c = ' ' := by intro c; rw [← hp]; simp
  obtain ⟨a, h1, h2, h3⟩ := drop_split p t
  generalize t.dropWhile p = u at h1 h3
  obtain ⟨b, k1, k2, k3⟩ := drop_split p u.reverse
  generalize u.reverse.dropWhile p = v at k1 k3
  have hu : u = v.reverse ++ b.reverse := by
    rw [← List.reverse_append, ← k1, List.reverse_reverse]
  refine ⟨a, b.reverse, by rw [← hu, ← h1], fun c hc => ?_, fun c hc hx => ?_⟩
  · rcases List.mem_append.1 hc with hc | hc
    · exact (hpc c).1 (h2 c hc)
    · exact (hpc c).1 (k2 c (List.mem_reverse.1 hc))
  · rcases hc with hc | hc
    · have := h3 c (by rw [hu]; cases hv : v.reverse with
        | nil => rw [hv] at hc; cases hc
        | cons x y => rw [hv] at hc; exact hc)
      rw [(hpc c).2 hx] at this
      cases this
    · have := k3 c (by rw [← hc, List.getLast?_reverse])
      rw [(hpc c).2 hx] at this
      cases this

end Verif.Labels
