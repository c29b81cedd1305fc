import Verif.Spec.RoundTrip
import Verif.Lemmas.Basic

/-! From the codec lemmas to the specification vocabulary. -/

namespace Verif

theorem Codec.roundTrips {α : Type} {g : Gen} {p : P α} {y : α} {n : Nat} (h : Codec g p y n) :
    RoundTrips g p y n := by
  obtain ⟨bs, e, l, r⟩ := h
  refine ⟨bs, e, l, fun f => ?_⟩
  have := r 0 (bytesToBits f)
  simp only [bytesToBits_length, l, Nat.zero_add] at this
  simpa [stream] using this

theorem validate_acceptsIff {α : Type} {c : Prop} [Decidable c] {a : α} :
    AcceptsIff (validate c a) c := by
  unfold validate
  constructor
  · split <;> simp_all
  · intro h; simp [h]

end Verif
