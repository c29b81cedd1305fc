import Verif.Lemmas.SystemFiles

/-! Histories of PhyStatusFile constructor calls and the shared default lists. -/

namespace Verif
namespace PhyStatusFile

theorem iter_cut (f : PhyStatusFile) : f.cut.iter = f.iter := by
  unfold iter
  have : (List.range f.cut.channelStatusListLength.toNat).map f.cut.iterChannel =
      (List.range f.channelStatusListLength.toNat).map f.iterChannel := by
    apply List.map_congr_left
    intro k hk
    have hk : k < f.channelStatusListLength.toNat := List.mem_range.1 hk
    simp only [iterChannel, cut, List.getElem?_take, hk, if_true]
  rw [this]
  rfl

/-- The default lists hold default entries only. -/
def Plain (d : Defaults) (a b : Nat) : Prop :=
  d.ids = List.replicate a .default ∧ d.floors = List.replicate b 0

theorem extend_replicate {α : Type} (a : Nat) (n : Int) (x : α) :
    extend (List.replicate a x) n x = List.replicate (max a n.toNat) x := by
  rw [extend_eq, List.replicate_append_replicate, List.length_replicate]
  congr 1
  omega

/-- Length of a default list after a call. -/
def grow (a : Nat) (n : Int) (passed : Bool) : Nat := if passed then a else max a n.toNat

theorem call_plain {d : Defaults} {a b : Nat} (h : Plain d a b) (c : Call) :
    Plain (call d c).1 (grow a c.listLength c.ids.isSome)
      (grow b c.listLength c.floors.isSome) := by
  obtain ⟨h1, h2⟩ := h
  refine ⟨?_, ?_⟩
  · simp only [call, grow]
    cases c.ids with
    | some l => simp [Ref.of, Ref.extend, h1]
    | none => simp [Ref.of, Ref.extend, h1, extend_replicate]
  · simp only [call, grow]
    cases c.floors with
    | some l => simp [Ref.of, Ref.extend, h2]
    | none => simp [Ref.of, Ref.extend, h2, extend_replicate]

theorem calls_plain (h : List Call) : ∀ {d : Defaults} {a b : Nat}, Plain d a b →
    ∃ a' b', Plain (calls d h) a' b' ∧ a ≤ a' ∧ b ≤ b' ∧
      (∀ c ∈ h, c.ids = none → c.listLength.toNat ≤ a') ∧
      (∀ c ∈ h, c.floors = none → c.listLength.toNat ≤ b') ∧
      (∀ m, a ≤ m → (∀ c ∈ h, c.ids = none → c.listLength.toNat ≤ m) → a' ≤ m) ∧
      (∀ m, b ≤ m → (∀ c ∈ h, c.floors = none → c.listLength.toNat ≤ m) → b' ≤ m) := by
  induction h with
  | nil =>
    intro d a b hp
    exact ⟨a, b, hp, le_refl _, le_refl _, by simp, by simp, fun m h _ => h, fun m h _ => h⟩
  | cons c h ih =>
    intro d a b hp
    obtain ⟨a', b', q1, q2, q3, q4, q5, q6, q7⟩ := ih (call_plain hp c)
    refine ⟨a', b', q1, ?_, ?_, ?_, ?_, ?_, ?_⟩
    · unfold grow at q2; split at q2 <;> omega
    · unfold grow at q3; split at q3 <;> omega
    · intro x hx hn
      rcases List.mem_cons.1 hx with rfl | hx
      · simp [grow, hn] at q2; omega
      · exact q4 x hx hn
    · intro x hx hn
      rcases List.mem_cons.1 hx with rfl | hx
      · simp [grow, hn] at q3; omega
      · exact q5 x hx hn
    · intro m hm hall
      refine q6 m ?_ fun x hx => hall x (by simp [hx])
      unfold grow
      cases hc : c.ids with
      | some l => simpa using hm
      | none => have := hall c (by simp) hc; simp; omega
    · intro m hm hall
      refine q7 m ?_ fun x hx => hall x (by simp [hx])
      unfold grow
      cases hc : c.floors with
      | some l => simpa using hm
      | none => have := hall c (by simp) hc; simp; omega

theorem fresh_plain : Plain .fresh 0 0 := ⟨rfl, rfl⟩

/-- The list lengths an object of a call has, given the lengths of the default lists. -/
def lenOf {α : Type} (l : Option (List α)) (a : Nat) (n : Int) : Nat :=
  match l with
  | some l => max l.length n.toNat
  | none => max a n.toNat

/-- The conditions on the other attributes. -/
def Call.Fields (c : Call) : Prop :=
  isU32 c.upTime ∧ isU32 c.rxTime ∧ isU32 c.txTime ∧ (0 ≤ c.txDutyCycle ∧ c.txDutyCycle ≤ 1000) ∧
  isByte c.listLength

theorem call_ok_iff {d : Defaults} {a b : Nat} (h : Plain d a b) (c : Call) (o : Obj) :
    (call d c).2 = .ok o ↔ (c.Fields ∧ lenOf c.ids a c.listLength ≤ 255 ∧
      lenOf c.floors b c.listLength ≤ 255) ∧
      o = ⟨c.upTime, c.rxTime, c.txTime, c.txDutyCycle, c.listLength,
        ((Ref.of c.ids).extend [] c.listLength .default).1,
        ((Ref.of c.floors).extend [] c.listLength 0).1⟩ := by
  obtain ⟨h1, h2⟩ := h
  have e1 : ((Ref.of c.ids).extend d.ids c.listLength .default).1 =
      ((Ref.of c.ids).extend [] c.listLength .default).1 := by cases c.ids <;> rfl
  have e2 : ((Ref.of c.floors).extend d.floors c.listLength 0).1 =
      ((Ref.of c.floors).extend [] c.listLength 0).1 := by cases c.floors <;> rfl
  have l1 : (((Ref.of c.ids).extend d.ids c.listLength .default).1.get
      ((Ref.of c.ids).extend d.ids c.listLength .default).2).length = lenOf c.ids a c.listLength := by
    cases c.ids with
    | some l => simp [Ref.of, Ref.extend, Ref.get, lenOf, extend_length]
    | none => simp [Ref.of, Ref.extend, Ref.get, lenOf, h1, extend_replicate]
  have l2 : (((Ref.of c.floors).extend d.floors c.listLength 0).1.get
      ((Ref.of c.floors).extend d.floors c.listLength 0).2).length
        = lenOf c.floors b c.listLength := by
    cases c.floors with
    | some l => simp [Ref.of, Ref.extend, Ref.get, lenOf, extend_length]
    | none => simp [Ref.of, Ref.extend, Ref.get, lenOf, h2, extend_replicate]
  simp only [call, validate_eq_ok, Obj.view, Valid, l1, l2, Call.Fields, ← e1, ← e2]
  constructor
  · rintro ⟨⟨a, b, c, d, e, f, g⟩, rfl⟩; exact ⟨⟨⟨a, b, c, d, e⟩, f, g⟩, rfl⟩
  · rintro ⟨⟨⟨a, b, c, d, e⟩, f, g⟩, rfl⟩; exact ⟨⟨a, b, c, d, e, f, g⟩, rfl⟩

theorem call_err (d : Defaults) (c : Call) (e : PyErr) (h : (call d c).2 = .error e) :
    e = .valueError := (validate_eq_error.1 h).2

/-- The serialised part of an object created by a call, at any later moment. -/
theorem view_cut {d : Defaults} {a b : Nat} (h : Plain d a b) (c : Call) (o : Obj)
    (ho : (call d c).2 = .ok o) {d' : Defaults} {a' b' : Nat} (h' : Plain d' a' b')
    (ha : c.ids = none → c.listLength.toNat ≤ a') (hb : c.floors = none → c.listLength.toNat ≤ b') :
    (o.view d').cut = ⟨c.upTime, c.rxTime, c.txTime, c.txDutyCycle, c.listLength,
      (extend (c.ids.getD []) c.listLength .default).take c.listLength.toNat,
      (extend (c.floors.getD []) c.listLength 0).take c.listLength.toNat⟩ := by
  obtain ⟨-, rfl⟩ := (call_ok_iff h c o).1 ho
  obtain ⟨h1, h2⟩ := h'
  simp only [cut, Obj.view, mk.injEq, true_and]
  constructor
  · cases hc : c.ids with
    | some l => simp [Ref.of, Ref.extend, Ref.get]
    | none =>
      have := ha hc
      simp only [Ref.of, Ref.extend, Ref.get, h1, Option.getD_none]
      rw [extend_eq]
      simp [List.take_replicate]
      omega
  · cases hc : c.floors with
    | some l => simp [Ref.of, Ref.extend, Ref.get]
    | none =>
      have := hb hc
      simp only [Ref.of, Ref.extend, Ref.get, h2, Option.getD_none]
      rw [extend_eq]
      simp [List.take_replicate]
      omega

/-- The serialisation of an object created by a call, at any later moment. -/
theorem view_iter {d : Defaults} {a b : Nat} (h : Plain d a b) (c : Call) (o : Obj)
    (ho : (call d c).2 = .ok o) (later : List Call) :
    (o.view (calls (call d c).1 later)).iter =
      iter ⟨c.upTime, c.rxTime, c.txTime, c.txDutyCycle, c.listLength,
        (extend (c.ids.getD []) c.listLength .default).take c.listLength.toNat,
        (extend (c.floors.getD []) c.listLength 0).take c.listLength.toNat⟩ := by
  obtain ⟨a', b', hp, ha, hb, -⟩ := calls_plain later (call_plain h c)
  rw [← iter_cut, view_cut h c o ho hp]
  · intro hn
    rw [hn] at ha
    simp [grow] at ha
    omega
  · intro hn
    rw [hn] at hb
    simp [grow] at hb
    omega

end PhyStatusFile
end Verif
