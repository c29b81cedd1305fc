import Verif.Model.Equality
import Verif.Props.Codecs
import Verif.Props.Length

/-! C59: equality of library objects. -/

namespace Verif.Equality

open Verif

/-- What is serialised and parsed back by the same parser is determined by its bytes. -/
theorem injective {α : Type} {g g' : Gen} {p : P α} {x y : α} {n m : Nat} (h : RoundTrips g p x n)
    (h' : RoundTrips g' p y m) : bytearray g = bytearray g' → x = y := by
  obtain ⟨a, e, l, r⟩ := h
  obtain ⟨b, e', l', r'⟩ := h'
  intro hb
  rw [e, e'] at hb
  injection hb with hb
  subst hb
  have := r []
  rw [r' []] at this
  injection this with this
  exact this.symm

/-- C59: two accepted lengths are equal exactly when they serialise to the same bytes. -/
theorem C59_length {v w : Int} {a b : Length} (ha : Length.new v = .ok a) (hb : Length.new w = .ok b) :
    eq (.length a) (.length b) = true ↔ bytearray a.iter = bytearray b.iter := by
  obtain ⟨-, n, h⟩ := C01_length_round_trip v a ha
  obtain ⟨-, m, h'⟩ := C01_length_round_trip w b hb
  constructor
  · intro e
    have : a.value = b.value := by simpa [eq, method, lengthEq] using e
    have : a = b := by cases a; cases b; simp_all
    rw [this]
  · intro e
    rw [injective h h' e]
    simp [eq, method, lengthEq]

example : Length.new 16500 = .ok ⟨16500⟩ ∧ Length.new 64 = .ok ⟨64⟩ ∧
    eq (.length ⟨16500⟩) (.length ⟨64⟩) = false := by decide

theorem permissionsEq_iff (a b : FilePermissions) : permissionsEq a (.permissions b) = true ↔ a = b := by
  cases a; cases b; simp [permissionsEq, and_assoc]

theorem propertiesEq_iff (a b : FileProperties) : propertiesEq a (.properties b) = true ↔ a = b := by
  cases a; cases b; simp [propertiesEq, and_assoc]

theorem channelEq_iff (a b : ChannelHeader) : channelEq a (.channel b) = true ↔ a = b := by
  cases a; cases b; simp [channelEq, and_assoc]

theorem headerEq_iff (a b : FileHeader) : headerEq a (.header b) = true ↔ a = b := by
  cases a; cases b; simp [headerEq, and_assoc, permissionsEq_iff, propertiesEq_iff]

/-- C59: two permission sets are equal exactly when they serialise to the same bytes. -/
theorem C59_permissions (a b : FilePermissions) :
    eq (.permissions a) (.permissions b) = true ↔ bytearray a.iter = bytearray b.iter :=
  (permissionsEq_iff a b).trans
    ⟨fun h => by rw [h], injective (C08_file_permissions a) (C08_file_permissions b)⟩

example : eq (.permissions ⟨true, false, true, true, true, false, false, true⟩)
    (.permissions ⟨true, false, true, true, true, false, true, true⟩) = false := by decide

/-- C59: two property sets are equal exactly when they serialise to the same bytes. -/
theorem C59_properties (a b : FileProperties) :
    eq (.properties a) (.properties b) = true ↔ bytearray a.iter = bytearray b.iter :=
  (propertiesEq_iff a b).trans
    ⟨fun h => by rw [h], injective (C08_file_properties a) (C08_file_properties b)⟩

example : eq (.properties ⟨true, .WRITE, .PERMANENT⟩) (.properties ⟨true, .WRITE, .VOLATILE⟩) = false := by
  decide

/-- C59: two accepted file headers are equal exactly when they serialise to the same bytes. -/
theorem C59_header {p p' : FilePermissions} {q q' : FileProperties} {a i s n a' i' s' n' : Int}
    {f f' : FileHeader} (h : FileHeader.new p q a i s n = .ok f)
    (h' : FileHeader.new p' q' a' i' s' n' = .ok f') :
    eq (.header f) (.header f') = true ↔ bytearray f.iter = bytearray f'.iter :=
  (headerEq_iff f f').trans ⟨fun h => by rw [h],
    injective (C08_file_header _ _ _ _ _ _ f h).2 (C08_file_header _ _ _ _ _ _ f' h').2⟩

example : FileHeader.new ⟨true, false, true, true, true, false, false, true⟩ ⟨false, .READ, .VOLATILE⟩ 1 2
    0xDEADBEEF 0xFFFFFFFF = .ok ⟨⟨true, false, true, true, true, false, false, true⟩,
    ⟨false, .READ, .VOLATILE⟩, 1, 2, 0xDEADBEEF, 0xFFFFFFFF⟩ := by decide

/-- C59: two channel headers are equal exactly when they serialise to the same bytes. -/
theorem C59_channel (a b : ChannelHeader) :
    eq (.channel a) (.channel b) = true ↔ bytearray a.iter = bytearray b.iter :=
  (channelEq_iff a b).trans
    ⟨fun h => by rw [h], injective (C06_channel_header a) (C06_channel_header b)⟩

example : eq (.channel ⟨.FEC_PN9, .NORMAL_RATE, .BAND_868⟩) (.channel ⟨.FEC_PN9, .LO_RATE, .BAND_868⟩) =
    false := by decide

/-- What equality compares: numbers and lengths stand for their number, everything else for itself. -/
def canon : Val → Val
  | .long v => .int v
  | .bool b => .int (if b then 1 else 0)
  | .length l => .int l.value
  | v => v

/-- A Python 2 `long` and a length. -/
def Mixed (a b : Val) : Prop :=
  (∃ v l, a = .long v ∧ b = .length l) ∨ (∃ v l, a = .length l ∧ b = .long v)

/-- C59: the exact meaning of `==` for all values: the same number or the same content, except that a length
is not equal to a long. -/
theorem C59_iff (a b : Val) : eq a b = true ↔ canon a = canon b ∧ ¬ Mixed a b := by
  unfold Mixed
  cases a <;> cases b <;>
    simp [eq, method, plain, number, canon, lengthEq, permissionsEq_iff, propertiesEq_iff, channelEq_iff,
      headerEq_iff] <;>
    first | (simp [permissionsEq, propertiesEq, channelEq, headerEq]; done) | omega

example : eq (.length ⟨1⟩) (.bool true) = true ∧ eq (.int 7) (.length ⟨7⟩) = true ∧
    eq (.length ⟨7⟩) (.long 7) = false ∧ eq (.other 3) (.length ⟨3⟩) = false := by decide

/-- C59: equality is reflexive. -/
theorem C59_refl (a : Val) : eq a a = true :=
  (C59_iff a a).2 ⟨rfl, by rintro (⟨v, l, h, h'⟩ | ⟨v, l, h, h'⟩) <;> rw [h] at h' <;> cases h'⟩

example : eq (.channel ⟨.PN9, .LO_RATE, .BAND_433⟩) (.channel ⟨.PN9, .LO_RATE, .BAND_433⟩) = true := C59_refl _

/-- C59: equality is symmetric, whichever operand's method decides. -/
theorem C59_symm (a b : Val) : eq a b = eq b a := by
  rw [Bool.eq_iff_iff, C59_iff, C59_iff]
  have : Mixed a b ↔ Mixed b a := by
    constructor <;> rintro (⟨v, l, h, h'⟩ | ⟨v, l, h, h'⟩)
    · exact .inr ⟨v, l, h', h⟩
    · exact .inl ⟨v, l, h', h⟩
    · exact .inr ⟨v, l, h', h⟩
    · exact .inl ⟨v, l, h', h⟩
  rw [this, eq_comm]

example : eq (.int 5) (.length ⟨5⟩) = true ∧ eq (.length ⟨5⟩) (.int 5) = true := by decide

/-- C59, transitivity: the exact condition. Missing for the full claim: a length and a long with the same
number are not equal, although both are equal to an int (`C59_trans_refuted`). -/
theorem C59_trans_partial (a b c : Val) (h : eq a b = true) (h' : eq b c = true) :
    eq a c = true ↔ ¬ Mixed a c := by
  rw [C59_iff] at h h' ⊢
  exact ⟨fun x => x.2, fun x => ⟨h.1.trans h'.1, x⟩⟩

example : eq (.length ⟨5⟩) (.int 5) = true ∧ eq (.int 5) (.length ⟨5⟩) = true := by decide

/-- C59 is false as stated: equality is not transitive. -/
theorem C59_trans_refuted : ∃ a b c, eq a b = true ∧ eq b c = true ∧ eq a c = false :=
  ⟨.length ⟨5⟩, .int 5, .long 5, by decide⟩

/-- A value whose class defines no comparison of its own. -/
def Plain (a : Val) : Prop := method a = none

/-- The comparisons that `ChannelHeader.__ne__` decides with an operand that is no channel header. -/
def Foreign (a b : Val) : Prop :=
  (∃ c, a = .channel c ∧ ∀ d, b ≠ .channel d) ∨ (∃ c, b = .channel c ∧ Plain a)

/-- C59, `!=`: the exact condition under which it is the negation of `==`. Missing for the full claim: a
channel header is neither equal nor unequal to a value of another kind (`C59_ne_refuted`). -/
theorem C59_ne_partial (a b : Val) : (ne a b = !eq a b) ↔ ¬ Foreign a b := by
  unfold Foreign Plain
  cases a <;> cases b <;>
    simp [eq, ne, method, neMethod, channelNe, channelEq]

example : ¬ Foreign (.length ⟨5⟩) (.channel ⟨.PN9, .LO_RATE, .BAND_433⟩) := by
  rintro (⟨c, h, -⟩ | ⟨c, -, h⟩)
  · cases h
  · cases h

/-- C59 is false as stated: `channel == 5` and `channel != 5` are both false. -/
theorem C59_ne_refuted : ∃ a b, eq a b = false ∧ ne a b = false :=
  ⟨.channel ⟨.PN9, .LO_RATE, .BAND_433⟩, .int 5, by decide⟩

/-- C59: a value is equal and unequal to another at the same time in no case. -/
theorem C59_not_both (a b : Val) : ¬ (eq a b = true ∧ ne a b = true) := by
  rintro ⟨h, h'⟩
  by_cases hf : Foreign a b
  · rw [C59_iff] at h
    rcases hf with ⟨c, rfl, hb⟩ | ⟨c, rfl, ha⟩
    · cases b <;> simp [canon] at h
      exact hb _ rfl
    · cases a <;> simp [canon] at h
      cases ha
  · rw [(C59_ne_partial a b).2 hf, h] at h'
    cases h'

example : eq (.int 5) (.length ⟨5⟩) = true ∧ ne (.int 5) (.length ⟨5⟩) = false := by decide

end Verif.Equality
