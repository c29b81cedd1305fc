import Verif.Lemmas.ActionInv
import Verif.Lemmas.AlpAdv

/-! Running the ALP parser over a sequence of actions; folding actions into a command. -/

namespace Verif

namespace AlpParser

theorem loop_run (n : Int) (segs : List (List Bool × Option Action))
    (h : ∀ x ∈ segs, Reads parseAlpAction x.2 x.1 ∧ x.1.length % 8 = 0 ∧ 8 ≤ x.1.length) :
    ∀ (fuel : Nat) (parsed : Int) (as : List (Option Action)) (pos : Nat) (rest : List Bool),
    (segs.map Prod.fst).flatten.length < fuel →
    parsed + ((segs.map Prod.fst).flatten.length / 8 : Nat) = n →
    loop n fuel parsed as ⟨pos, (segs.map Prod.fst).flatten ++ rest⟩ =
      .ok (as ++ segs.map Prod.snd) ⟨pos + (segs.map Prod.fst).flatten.length, rest⟩ := by
  induction segs with
  | nil =>
    intro fuel parsed as pos rest hf hn
    obtain ⟨f, rfl⟩ : ∃ f, fuel = f + 1 := ⟨fuel - 1, by simp at hf; omega⟩
    simp at hn
    simp [loop, hn]
  | cons x segs ih =>
    intro fuel parsed as pos rest hf hn
    obtain ⟨f, rfl⟩ : ∃ f, fuel = f + 1 := ⟨fuel - 1, by simp at hf; omega⟩
    obtain ⟨hr, h8, hl⟩ := h x (by simp)
    simp only [List.map_cons, List.flatten_cons, List.length_append] at hf hn
    have hlt : parsed < n := by omega
    simp only [loop, hlt, if_true, List.map_cons, List.flatten_cons, List.append_assoc, hr pos]
    rw [ih (fun y hy => h y (by simp [hy])) f _ _ _ _ (by omega)]
    · simp [Nat.add_assoc]
    · have : (pos + x.1.length - pos) / 8 = x.1.length / 8 := by simp
      rw [this]
      omega

/-- Parsing exactly the bits of a sequence of actions. -/
theorem parse_run (segs : List (List Bool × Option Action))
    (h : ∀ x ∈ segs, Reads parseAlpAction x.2 x.1 ∧ x.1.length % 8 = 0 ∧ 8 ≤ x.1.length)
    (pos : Nat) (hpos : pos % 8 = 0) (rest : List Bool) :
    parse ((segs.map Prod.fst).flatten.length / 8 : Nat)
        ⟨pos, (segs.map Prod.fst).flatten ++ rest⟩ =
      P.lift (Command.new (segs.map Prod.snd) false none true 0)
        ⟨pos + (segs.map Prod.fst).flatten.length, rest⟩ := by
  by_cases hn : (segs.map Prod.fst).flatten.length / 8 = 0
  · have : segs = [] := by
      cases segs with
      | nil => rfl
      | cons x segs =>
        have := (h x (by simp)).2.2
        simp at hn
        omega
    subst this
    rfl
  · have hn' : ((((segs.map Prod.fst).flatten.length / 8 : Nat)) : Int) ≠ 0 := by exact_mod_cast hn
    simp only [parse, P.bind_apply, parseActions, ne_eq, hn', not_false_eq_true, if_true]
    rw [parseLoop_eq _ _ _ _ _ hpos, loop_run _ segs h _ _ _ _ _ (by simp; omega) (by simp)]
    rfl

end AlpParser

namespace Command

/-- Goes to the `actions` list. -/
def plain : Action → Bool
  | .status e _ => e ≠ 1
  | .tagRequest _ _ => false
  | .tagResponse _ _ _ => false
  | _ => true

theorem addInit_plain (b : Building) (a : Action) (h : plain a = true) :
    addInit b (some a) = .ok { b with actions := b.actions ++ [some a] } := by
  cases a with
  | status e o =>
    have : e ≠ 1 := by simpa [plain] using h
    unfold addInit
    split <;> simp_all
  | tagRequest r o => cases h
  | tagResponse r e o => cases h
  | _ => rfl

theorem fold_plain (l : List Action) : ∀ (b : Building), (∀ a ∈ l, plain a = true) →
    (l.map some).foldlM addInit b = .ok { b with actions := b.actions ++ l.map some } := by
  induction l with
  | nil => intro b _; simp [pure, Except.pure]
  | cons a l ih =>
    intro b h
    rw [List.map_cons, List.foldlM_cons, addInit_plain _ _ (h a (by simp))]
    simp only [bind, Except.bind]
    rw [ih _ (fun x hx => h x (by simp [hx]))]
    simp

theorem allSome_map (l : List Action) : allSome (l.map some) = some l := by
  induction l with
  | nil => rfl
  | cons a l ih => simp [allSome, ih]

end Command

theorem Emits.concat_inv {gs : List Gen} : ∀ {bs : List UInt8}, Emits (.concat gs) bs →
    ∃ xs, List.Forall₂ Emits gs xs ∧ bs = xs.flatten := by
  induction gs with
  | nil => intro bs h; exact ⟨[], .nil, h.unique Emits.nil⟩
  | cons g gs ih =>
    intro bs h
    obtain ⟨a, b, ha, hb, rfl⟩ := Emits.append_inv (show Emits (g ++ .concat gs) bs from h)
    obtain ⟨xs, hx, rfl⟩ := ih hb
    exact ⟨a :: xs, .cons ha hx, by simp⟩

theorem Emits.concat {gs : List Gen} {xs : List (List UInt8)} (h : List.Forall₂ Emits gs xs) :
    Emits (.concat gs) xs.flatten := by
  induction h with
  | nil => exact Emits.nil
  | cons h _ ih => exact h.append ih

end Verif
