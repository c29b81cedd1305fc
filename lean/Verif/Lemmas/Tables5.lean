import Verif.Lemmas.Tables3
import Verif.Lemmas.ParseSegs
import Verif.Lemmas.CommandRun

/-! The tables of commands, of access profile files and of keys. -/

namespace Verif

theorem AccessProfileFile.decodes : Decodes AccessProfileFile.parse fun x t =>
    x.accessSpecifier = 0 ∧ ∃ p, x.accessProfile = some p ∧ p.Built ∧ p.subBands.length = 8 ∧ t = p.table := by
  refine Decodes.cast (Decodes.bind AccessProfile.decodes fun p =>
    Decodes.lift (AccessProfileFile.new 0 (some p))) ?_
  rintro ⟨i, q⟩ t _
  constructor
  · rintro ⟨p, u, _, ⟨hb, h8, rfl⟩, ⟨hn, rfl⟩, rfl⟩
    obtain ⟨-, e⟩ := validate_eq_ok.1 hn
    cases e
    exact ⟨rfl, p, rfl, hb, h8, by simp⟩
  · rintro ⟨h0, p, hq, hb, h8, rfl⟩
    simp only at h0 hq
    subst h0 hq
    exact ⟨p, p.table, [], ⟨hb, h8, rfl⟩, ⟨validate_of (by decide), rfl⟩, by simp⟩

theorem Decodes.reads {α : Type} {p : P α} {tables : α → Table → Prop} (h : Decodes p tables) {x : α}
    {t : Table} {bits : List Bool} (ht : tables x t) (hm : Matches t bits) : Reads p x bits :=
  fun pos rest => (h ⟨pos, bits ++ rest⟩ x ⟨pos + bits.length, rest⟩).2 ⟨t, bits, ht, hm, rfl, rfl⟩

theorem Decodes.of_reads {α : Type} {p : P α} {tables : α → Table → Prop} (h : Decodes p tables) {x : α}
    {bits : List Bool} (hr : Reads p x bits) : ∃ t, tables x t ∧ Matches t bits := by
  have := hr 0 []
  obtain ⟨t, b, ht, hm, e, -⟩ := (h _ _ _).1 this
  simp only [List.append_nil] at e
  exact ⟨t, ht, e ▸ hm⟩

namespace AlpParser

theorem actionTables_size {r : Option Action} {t : Table} {bits : List Bool} (h : ActionTables r t)
    (hm : Matches t bits) : 8 ≤ bits.length := by
  obtain ⟨b7, b6, op, u, rfl⟩ := actionTables_header h
  obtain ⟨c, d, rfl, hc, -⟩ := matches_append.1 hm
  obtain ⟨f1, r1, rfl, l1, -, f2, r2, rfl, l2, -, f3, r3, rfl, l3, -, hr⟩ := hc
  have hr : r3 = [] := hr
  subst hr
  simp only [bit] at l1 l2 l3
  simp [l1, l2, l3]
  omega

theorem loop_runs (n : Int) (segs : List (List Bool × Option Action))
    (h : ∀ x ∈ segs, Reads parseAlpAction x.2 x.1 ∧ x.1.length % 8 = 0 ∧ 8 ≤ x.1.length) :
    ∀ (fuel : Nat) (parsed : Int) (as : List (Option Action)) (pos : Nat) (rest : List Bool),
    (segs.map Prod.fst).flatten.length < fuel →
    n ≤ parsed + ((segs.map Prod.fst).flatten.length / 8 : Nat) →
    (∀ init last, segs = init ++ [last] → parsed + ((init.map Prod.fst).flatten.length / 8 : Nat) < n) →
    loop n fuel parsed as ⟨pos, (segs.map Prod.fst).flatten ++ rest⟩ =
      .ok (as ++ segs.map Prod.snd) ⟨pos + (segs.map Prod.fst).flatten.length, rest⟩ := by
  induction segs with
  | nil =>
    intro fuel parsed as pos rest hf hn _
    obtain ⟨f, rfl⟩ : ∃ f, fuel = f + 1 := ⟨fuel - 1, by simp at hf; omega⟩
    simp at hn
    simp [loop, hn]
  | cons x segs ih =>
    intro fuel parsed as pos rest hf hn hi
    obtain ⟨f, rfl⟩ : ∃ f, fuel = f + 1 := ⟨fuel - 1, by simp at hf; omega⟩
    obtain ⟨hr, h8, hl⟩ := h x (by simp)
    simp only [List.map_cons, List.flatten_cons, List.length_append] at hf hn
    have hlt : parsed < n := by
      obtain ⟨init, last, e⟩ : ∃ init last, x :: segs = init ++ [last] :=
        ⟨_, _, (List.dropLast_concat_getLast (by simp)).symm⟩
      have := hi init last e
      omega
    simp only [loop, hlt, if_true, List.map_cons, List.flatten_cons, List.append_assoc, hr pos]
    have e8 : (pos + x.1.length - pos) / 8 = x.1.length / 8 := by simp
    rw [ih (fun y hy => h y (by simp [hy])) f _ _ _ _ (by omega)]
    · simp [Nat.add_assoc]
    · rw [e8]
      omega
    · intro init last e
      have := hi (x :: init) last (by rw [e]; rfl)
      simp only [List.map_cons, List.flatten_cons, List.length_append] at this
      rw [e8]
      omega

theorem bytes_flatten (segs : List (List UInt8 × Option Action)) :
    ((segs.map fun x => (bytesToBits x.1, x.2)).map Prod.fst).flatten =
      bytesToBits (segs.map Prod.fst).flatten := by
  induction segs with
  | nil => rfl
  | cons x l ih =>
    simp only [List.map_cons, List.flatten_cons, bytesToBits_append] at ih ⊢
    rw [ih]

theorem parse_runs {n : Int} {segs : List (List UInt8 × Option Action)} {rest : List UInt8} {c : Command}
    (h : ∀ x ∈ segs, Reads parseAlpAction x.2 (bytesToBits x.1) ∧ x.1 ≠ [])
    (hn : n ≤ (segs.map Prod.fst).flatten.length)
    (hi : ∀ init last, segs = init ++ [last] → ((init.map Prod.fst).flatten.length : Int) < n)
    (hc : Command.new (segs.map Prod.snd) false none true 0 = .ok c) :
    parse n (stream ((segs.map Prod.fst).flatten ++ rest)) =
      .ok c ⟨8 * (segs.map Prod.fst).flatten.length, bytesToBits rest⟩ := by
  have key : parseActions n (stream ((segs.map Prod.fst).flatten ++ rest)) =
      .ok (segs.map Prod.snd) ⟨8 * (segs.map Prod.fst).flatten.length, bytesToBits rest⟩ := by
    have hr := loop_runs n (segs.map fun x => (bytesToBits x.1, x.2)) (by
      intro x hx
      obtain ⟨y, hy, rfl⟩ := List.mem_map.1 hx
      obtain ⟨h1, h2⟩ := h y hy
      have := List.length_pos_iff.2 h2
      refine ⟨h1, ?_, ?_⟩ <;> simp only [bytesToBits_length] <;> omega)
      ((stream ((segs.map Prod.fst).flatten ++ rest)).rest.length + 1) 0 [] 0 (bytesToBits rest) (by
        rw [bytes_flatten, stream]
        simp [bytesToBits_append]; omega) (by
        rw [bytes_flatten, bytesToBits_length]
        omega) (by
        intro init last e
        obtain ⟨a, b, rfl, ha, hb⟩ := List.map_eq_append_iff.1 e
        obtain ⟨y, l, rfl, hy, hl⟩ := List.map_eq_cons_iff.1 hb
        have hl : l = [] := List.map_eq_nil_iff.1 hl
        subst hl
        have := hi a y rfl
        rw [← ha, bytes_flatten, bytesToBits_length]
        omega)
    rw [bytes_flatten] at hr
    simp only [List.map_map] at hr
    have e2 : (segs.map ((Prod.snd : List Bool × Option Action → _) ∘ fun x => (bytesToBits x.1, x.2))) =
        segs.map Prod.snd := rfl
    rw [e2, bytesToBits_length, Nat.zero_add, List.nil_append] at hr
    unfold parseActions
    split
    · rw [parseLoop_eq _ _ _ _ _ rfl]
      unfold stream at hr ⊢
      rw [bytesToBits_append] at hr ⊢
      exact hr
    · next h0 =>
      have h0 : n = 0 := by simpa using h0
      subst h0
      have : segs = [] := by
        rcases List.eq_nil_or_concat segs with h | ⟨i, l, rfl⟩
        · exact h
        · have := hi i l (by simp)
          omega
      subst this
      rfl
  unfold parse
  rw [P.bind_apply, key]
  simp only [P.lift, hc]

end AlpParser
end Verif
