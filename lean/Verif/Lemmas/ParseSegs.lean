import Verif.Lemmas.Parsed

/-! A successful ALP parse splits what it consumed into one piece per action. -/

namespace Verif.AlpParser

theorem parse_bits {n : Int} {s s' : St} {c : Command} (hs : s.pos % 8 = 0)
    (h : parse n s = .ok c s') : ∃ segs : List (List Bool × Option Action),
      s.rest = (segs.map Prod.fst).flatten ++ s'.rest ∧
      (∀ x ∈ segs, Reads parseAlpAction x.2 x.1 ∧ x.1.length % 8 = 0 ∧ 8 ≤ x.1.length) ∧
      (∀ init last, segs = init ++ [last] → ((init.map Prod.fst).flatten.length / 8 : Nat) < n) ∧
      Command.new (segs.map Prod.snd) false none true 0 = .ok c := by
  unfold parse at h
  rw [P.bind_ok] at h
  obtain ⟨as, s1, h1, h2⟩ := h
  rw [P.lift_ok] at h2
  obtain ⟨h2, rfl⟩ := h2
  unfold parseActions at h1
  split at h1
  · rw [parseLoop_eq _ _ _ _ _ hs] at h1
    obtain ⟨segs, rfl, e1, e2, e3⟩ := loop_segs _ _ _ _ _ _ _ h1
    exact ⟨segs, e1, e2, by simpa using e3, by simpa using h2⟩
  · next hn =>
    cases h1
    exact ⟨[], rfl, by simp, by simp, h2⟩

theorem flatten_mod8 (l : List (List Bool)) (h : ∀ x ∈ l, x.length % 8 = 0) :
    l.flatten.length % 8 = 0 := by
  induction l with
  | nil => rfl
  | cons a l ih =>
    have h1 := h a (by simp)
    have h2 := ih fun x hx => h x (by simp [hx])
    simp only [List.flatten_cons, List.length_append]
    omega

/-- The same in bytes. -/
theorem parse_bytes {n : Int} {bs : List UInt8} {c : Command} {s' : St}
    (h : parse n (stream bs) = .ok c s') :
    ∃ (segs : List (List UInt8 × Option Action)) (rest : List UInt8),
      bs = (segs.map Prod.fst).flatten ++ rest ∧
      s' = ⟨8 * (segs.map Prod.fst).flatten.length, bytesToBits rest⟩ ∧
      (∀ x ∈ segs, Reads parseAlpAction x.2 (bytesToBits x.1) ∧ x.1 ≠ []) ∧
      n ≤ (segs.map Prod.fst).flatten.length ∧
      (∀ init last, segs = init ++ [last] → ((init.map Prod.fst).flatten.length : Int) < n) ∧
      Command.new (segs.map Prod.snd) false none true 0 = .ok c := by
  have hs : (stream bs).pos % 8 = 0 := rfl
  obtain ⟨segs, e1, e2, e3, e4⟩ := parse_bits hs h
  have hsp := parse_spec n (stream bs) hs
  rw [h] at hsp
  obtain ⟨d, f1, f2, f3, f4, -⟩ := hsp
  have hd : d = (segs.map Prod.fst).flatten := List.append_cancel_right (f1.symm.trans e1)
  subst hd
  set bss := segs.map fun x => (bitsToBytes x.1, x.2) with hbss
  have hback : ∀ x ∈ segs, bytesToBits (bitsToBytes x.1) = x.1 ∧
      (bitsToBytes x.1).length = x.1.length / 8 := by
    intro x hx
    obtain ⟨-, h8, -⟩ := e2 x hx
    exact bitsToBytes_spec x.1 (x.1.length / 8) (by omega)
  have hfst : ∀ l : List (List Bool × Option Action), (∀ x ∈ l, x ∈ segs) →
      bytesToBits ((l.map fun x => (bitsToBytes x.1, x.2)).map Prod.fst).flatten =
        (l.map Prod.fst).flatten := by
    intro l hl
    induction l with
    | nil => rfl
    | cons a l ih =>
      simp only [List.map_cons, List.flatten_cons, bytesToBits_append]
      rw [(hback a (hl a (by simp))).1, ih fun x hx => hl x (by simp [hx])]
  have hflat := hfst segs fun x hx => hx
  have hlen : (segs.map Prod.fst).flatten.length = 8 * (bss.map Prod.fst).flatten.length := by
    rw [← hflat, bytesToBits_length]
  have hpre : bytesToBits (bss.map Prod.fst).flatten <+: bytesToBits bs := by
    rw [hflat]
    exact ⟨s'.rest, e1.symm⟩
  have hbs : bs = (bss.map Prod.fst).flatten ++ bs.drop (bss.map Prod.fst).flatten.length := by
    have h1 : bytesToBits (bs.take (bss.map Prod.fst).flatten.length) =
        bytesToBits (bss.map Prod.fst).flatten := by
      have hle := hpre.length_le
      rw [bytesToBits_length, bytesToBits_length] at hle
      have h2 : bytesToBits bs = bytesToBits (bs.take (bss.map Prod.fst).flatten.length) ++
          bytesToBits (bs.drop (bss.map Prod.fst).flatten.length) := by
        rw [← bytesToBits_append, List.take_append_drop]
      rw [h2] at hpre
      obtain ⟨t, ht⟩ := hpre
      exact (List.append_inj_left ht (by
        rw [bytesToBits_length, bytesToBits_length, List.length_take]; omega)).symm
    have := bytesToBits_inj h1
    conv_lhs => rw [← List.take_append_drop (bss.map Prod.fst).flatten.length bs, this]
  refine ⟨bss, bs.drop (bss.map Prod.fst).flatten.length, hbs, ?_, ?_, ?_, ?_, ?_⟩
  · obtain ⟨p, r⟩ := s'
    have hp : p = 0 + (segs.map Prod.fst).flatten.length := f2
    have hr : bytesToBits bs = (segs.map Prod.fst).flatten ++ r := e1
    rw [hbs, bytesToBits_append, hflat] at hr
    have := List.append_cancel_left hr
    rw [this, hp, hlen]
    simp
  · intro y hy
    obtain ⟨x, hx, rfl⟩ := List.mem_map.1 hy
    obtain ⟨h1, h8, hl⟩ := e2 x hx
    obtain ⟨h2, h3⟩ := hback x hx
    refine ⟨by simp only [h2]; exact h1, ?_⟩
    intro h0
    have h0 : bitsToBytes x.1 = [] := h0
    rw [h0, List.length_nil] at h3
    omega
  · omega
  · intro init last hl
    obtain ⟨i', l', hsplit, hi, hl'⟩ := List.map_eq_append_iff.1 (hbss.symm.trans hl)
    obtain ⟨z, hz⟩ : ∃ z, l' = [z] := by
      cases l' with
      | nil => simp at hl'
      | cons z t => cases t with
        | nil => exact ⟨z, rfl⟩
        | cons _ _ => simp at hl'
    subst hz
    have := e3 i' z hsplit
    have hf := hfst i' (by intro x hx; rw [hsplit]; simp [hx])
    rw [← hf, hi, bytesToBits_length, Nat.mul_div_cancel_left _ (by omega : 0 < 8)] at this
    exact this
  · rw [hbss, List.map_map]
    exact e4

end Verif.AlpParser
