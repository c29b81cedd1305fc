import Verif.Lemmas.SerialRun

/-! What a run delivers, and how it ends. -/

namespace Verif.Serial

open Verif

/-- The three ways an attempt at a CRC-valid frame ends. -/
theorem body_reading {skip : Bool} {t : UInt8} {l : Nat} {rest : List UInt8} {m : Msg} {s : St}
    (h : body skip l t.toNat ⟨56, bytesToBits rest⟩ = .ok m s) :
    ∃ taken more, rest = taken ++ more ∧ s = ⟨8 * (7 + taken.length), bytesToBits more⟩ ∧
      Reading skip t l rest m taken.length := by
  have hsp := body_spec skip l t.toNat rest
  rw [h] at hsp
  obtain ⟨d, r, rfl, rfl, -⟩ := hsp
  refine ⟨d, r, rfl, rfl, ?_⟩
  have e4 : ((t.toNat : Int) = 4) ↔ t = 4 := u8_eq_iff t 4 (by omega)
  have e5 : ((t.toNat : Int) = 5) ↔ t = 5 := u8_eq_iff t 5 (by omega)
  have hb : ∀ f : List UInt8 → Msg,
      (P.bytes l >>= fun b => (Pure.pure (f b) : P Msg)) ⟨56, bytesToBits (d ++ r)⟩ =
        .ok m ⟨8 * (7 + d.length), bytesToBits r⟩ → d.length = l ∧ m = f d := by
    intro f hf
    by_cases hl : l ≤ (d ++ r).length
    · rw [P.bind_apply, bytes_take _ _ _ hl] at hf
      injection hf with h1 h2
      injection h2 with h2 h3
      have hdl : d.length = l := by omega
      refine ⟨hdl, ?_⟩
      rw [← h1, ← hdl, List.take_left]
    · rw [P.bind_apply, bytes_short _ _ _ (by omega)] at hf
      cases hf
  unfold body at h
  by_cases h5 : t = 5
  · rw [if_pos (e5.2 h5)] at h
    cases hdr : d ++ r with
    | nil => rw [hdr] at h; cases h
    | cons y ys =>
      rw [hdr, P.bind_apply, uint8_cons] at h
      injection h with h1 h2
      injection h2 with h2 h3
      have : d.length = 1 := by omega
      rw [this, ← h1]
      exact .rebooted _ _ h5
  · rw [if_neg (fun e => h5 (e5.1 e))] at h
    by_cases h4 : t = 4
    · rw [if_pos (e4.2 h4)] at h
      obtain ⟨h1, rfl⟩ := hb _ h
      rw [h1]
      exact .bytes _ _ h1 (.inl h4)
    · rw [if_neg (fun e => h4 (e4.1 e))] at h
      cases skip with
      | true =>
        obtain ⟨h1, rfl⟩ := hb _ h
        rw [h1]
        exact .bytes _ _ h1 (.inr ⟨rfl, h5⟩)
      | false =>
        rw [if_neg (by simp), P.bind_apply] at h
        cases hp : AlpParser.parse l ⟨56, bytesToBits (d ++ r)⟩ with
        | err e s' => rw [hp] at h; cases h
        | ok c s' =>
          rw [hp] at h
          injection h with h1 h2
          have hsp := AlpParser.parse_spec l ⟨56, bytesToBits (d ++ r)⟩ (by norm_num)
          rw [hp] at hsp
          obtain ⟨d', e1, e2, e3, -, e5'⟩ := hsp
          rw [h2] at e1 e2
          simp only [bytesToBits_append] at e1 e2
          have e1 := List.append_cancel_right e1
          subst e1
          rw [← h1]
          refine .alp _ _ _ h4 h5 rfl ?_
          have := e5' 0 (bytesToBits r) (by norm_num)
          rw [stream, bytesToBits_append, this, bytesToBits_length]
          simp

/-- A delivered message starts with a CRC-valid frame. -/
theorem front_got_frame {skip : Bool} {b : List UInt8} {t : Int} {m : Msg} {k : Nat}
    (h : front skip b = .got t m k) :
    ∃ counter type payload after taken more, b = frame counter type payload ++ after ∧
      payload.length ≤ 255 ∧ payload ++ after = taken ++ more ∧ b.drop k = more ∧
      t = type.toNat ∧ Reading skip type payload.length (payload ++ after) m taken.length := by
  unfold front at h
  split at h
  · cases h
  · cases h
  · cases h
  · next c t' l rest hv =>
    obtain ⟨hl, hlr, hb⟩ := view_valid.1 hv
    split at h
    · next m' s' hbody =>
      obtain ⟨taken, more, h1, h2, h3⟩ := body_reading hbody
      cases h
      have hpl : (rest.take l).length = l := by simp [hlr]
      refine ⟨c, t', rest.take l, rest.drop l, taken, more, ?_, by omega, ?_, ?_, rfl, ?_⟩
      · rw [hb, frame, hpl, List.append_assoc, List.take_append_drop]
      · rw [List.take_append_drop, h1]
      · rw [h2, hb, h1]
        simp only [Nat.mul_div_cancel_left _ (by omega : 0 < 8)]
        have e : ∀ h : List UInt8, h.length = 7 →
            (h ++ (taken ++ more)).drop (7 + taken.length) = more := by
          intro h hh
          rw [← List.append_assoc]
          exact List.drop_left' (by simp [hh])
        exact e _ rfl
      · rw [List.take_append_drop, hpl]
        exact h3
    all_goals cases h

theorem Deliveries.gap {skip : Bool} {b rest : List UInt8} {ms : List (Int × Msg)}
    (h : Deliveries skip b ms rest) (g : List UInt8) : Deliveries skip (g ++ b) ms rest := by
  cases h with
  | done gap => rw [← List.append_assoc]; exact .done _ _
  | next gap c t pl after taken more m ms rest h1 h2 h3 h4 =>
    rw [← List.append_assoc, ← List.append_assoc]
    exact .next _ _ _ _ _ _ _ _ _ _ h1 h2 h3 h4

theorem trace_deliveries (skip : Bool) (n : Nat) : ∀ b : List UInt8, b.length = n →
    Deliveries skip b (Ev.msgs (trace skip b).evs) (trace skip b).rest := by
  induction n using Nat.strong_induction_on with
  | _ n ih =>
    intro b hn
    by_cases hb : b = []
    · subst hb
      rw [trace_nil]
      exact .done [] []
    · cases hf : front skip b with
      | need => rw [trace_need hb hf]; exact .done [] b
      | escape => rw [trace_escape hb hf]; exact .done [] b
      | bad e pos =>
        rw [trace_bad hb hf]
        obtain ⟨y, ys, rfl⟩ := List.exists_cons_of_ne_nil hb
        simp only [Ev.msgs, (skip_cons y ys).1]
        obtain ⟨g, hg⟩ := fromSync_suffix ys
        have hlen := fromSync_length ys
        simp only [List.length_cons] at hn
        have := (ih _ (by omega) (fromSync ys) rfl).gap (y :: g)
        rw [List.cons_append, ← hg] at this
        exact this
      | got t m k =>
        obtain ⟨h7, hk⟩ := front_got hf
        obtain ⟨c, t', pl, after, taken, more, e1, e2, e3, e4, e5, e6⟩ := front_got_frame hf
        rw [trace_got hf]
        simp only [Ev.msgs]
        have := ih (b.drop k).length (by simp only [List.length_drop]; omega) (b.drop k) rfl
        rw [e4] at this ⊢
        rw [e5]
        conv => arg 2; rw [e1]
        exact .next [] c t' pl after taken more m _ _ e2 e3 e6 this

/-- Conservation of bytes. -/
theorem trace_account (skip : Bool) (n : Nat) : ∀ b : List UInt8, b.length = n →
    b.length = Ev.taken (trace skip b).evs +
      ((Ev.errs (trace skip b).evs).map ErrorInfo.skipped).sum + (trace skip b).rest.length := by
  induction n using Nat.strong_induction_on with
  | _ n ih =>
    intro b hn
    by_cases hb : b = []
    · subst hb
      simp [trace_nil, Ev.taken, Ev.errs]
    · cases hf : front skip b with
      | need => simp [trace_need hb hf, Ev.taken, Ev.errs]
      | escape => simp [trace_escape hb hf, Ev.taken, Ev.errs]
      | bad e pos =>
        rw [trace_bad hb hf]
        obtain ⟨y, ys, rfl⟩ := List.exists_cons_of_ne_nil hb
        simp only [Ev.taken, Ev.errs, (skip_cons y ys).1, (skip_cons y ys).2, List.map_cons,
          List.sum_cons, List.length_cons]
        have hlen := fromSync_length ys
        simp only [List.length_cons] at hn
        have := ih _ (by omega) (fromSync ys) rfl
        omega
      | got t m k =>
        obtain ⟨h7, hk⟩ := front_got hf
        rw [trace_got hf]
        simp only [Ev.taken, Ev.errs]
        have := ih (b.drop k).length (by simp only [List.length_drop]; omega) (b.drop k) rfl
        simp only [List.length_drop] at this
        omega

/-- How a run ends. -/
theorem trace_end (skip : Bool) (n : Nat) : ∀ b : List UInt8, b.length = n →
    if (trace skip b).escaped then front skip (trace skip b).rest = .escape
    else (trace skip b).rest = [] ∨ front skip (trace skip b).rest = .need := by
  induction n using Nat.strong_induction_on with
  | _ n ih =>
    intro b hn
    by_cases hb : b = []
    · subst hb
      simp [trace_nil]
    · cases hf : front skip b with
      | need => simp [trace_need hb hf, hf]
      | escape => simp [trace_escape hb hf, hf]
      | bad e pos =>
        rw [trace_bad hb hf]
        have := skip_length hb
        exact ih _ (by omega) _ rfl
      | got t m k =>
        obtain ⟨h7, hk⟩ := front_got hf
        rw [trace_got hf]
        exact ih (b.drop k).length (by simp only [List.length_drop]; omega) (b.drop k) rfl

theorem front_head {skip : Bool} {b : List UInt8} (hb : b ≠ [])
    (h : front skip b = .need ∨ front skip b = .escape) : ∃ r, b = 0xC0 :: r := by
  obtain ⟨y, ys, rfl⟩ := List.exists_cons_of_ne_nil hb
  by_cases hy : y = 0xC0
  · exact ⟨ys, by rw [hy]⟩
  · rw [front_nosync skip ys hy] at h
    rcases h with h | h <;> cases h

/-- A message-less assertion fails while reading the ALP command of a CRC-valid frame. -/
theorem front_escape {skip : Bool} {b : List UInt8} (h : front skip b = .escape) :
    skip = false ∧ ∃ counter type payload after s, b = frame counter type payload ++ after ∧
      payload.length ≤ 255 ∧ type ≠ 4 ∧ type ≠ 5 ∧
      AlpParser.parse payload.length (stream (payload ++ after)) = .err (.assertion false) s := by
  unfold front at h
  split at h
  · cases h
  · cases h
  · cases h
  · next c t l rest hv =>
    obtain ⟨hl, hlr, hb⟩ := view_valid.1 hv
    have e4 : ((t.toNat : Int) = 4) ↔ t = 4 := u8_eq_iff t 4 (by omega)
    have e5 : ((t.toNat : Int) = 5) ↔ t = 5 := u8_eq_iff t 5 (by omega)
    split at h
    · cases h
    · cases h
    · next s hbody =>
      have hnb : ∀ f : List UInt8 → Msg,
          (P.bytes l >>= fun b => (Pure.pure (f b) : P Msg)) ⟨56, bytesToBits rest⟩ ≠
            .err (.assertion false) s := by
        intro f
        rw [P.bind_apply, bytes_take _ _ _ hlr]
        intro h; cases h
      unfold body at hbody
      by_cases h5 : t = 5
      · rw [if_pos (e5.2 h5)] at hbody
        cases rest with
        | nil => cases hbody
        | cons y ys => rw [P.bind_apply, uint8_cons] at hbody; cases hbody
      · rw [if_neg (fun e => h5 (e5.1 e))] at hbody
        by_cases h4 : t = 4
        · rw [if_pos (e4.2 h4)] at hbody
          exact absurd hbody (hnb _)
        · rw [if_neg (fun e => h4 (e4.1 e))] at hbody
          cases skip with
          | true => exact absurd hbody (hnb _)
          | false =>
            rw [if_neg (by simp), P.bind_apply] at hbody
            have hsp := AlpParser.parse_spec l ⟨56, bytesToBits rest⟩ (by norm_num)
            cases hp : AlpParser.parse l ⟨56, bytesToBits rest⟩ with
            | ok c s' => rw [hp] at hbody; cases hbody
            | err e s' =>
              rw [hp] at hbody
              injection hbody with h1 h2
              subst h1
              rw [hp] at hsp
              obtain ⟨d, e1, -, -, e6⟩ := hsp
              have hpl : (rest.take l).length = l := by simp [hlr]
              have := e6 (by simp) 0 s'.rest (by norm_num)
              refine ⟨rfl, c, t, rest.take l, rest.drop l, ⟨0 + d.length, s'.rest⟩, ?_, by omega,
                h4, h5, ?_⟩
              · rw [hb, frame, hpl, List.append_assoc, List.take_append_drop]
              · simp only at e1
                rw [List.take_append_drop, hpl, stream, e1]
                exact this
    · cases h

/-- Waiting: the frame is incomplete, or its message needs more bytes than its length says. -/
theorem front_need {skip : Bool} {b : List UInt8} (h : front skip b = .need) :
    b.length ≤ 261 ∨
    ∃ counter type payload after, b = frame counter type payload ++ after ∧
      payload.length ≤ 255 ∧
      (type = 5 ∧ payload = [] ∧ after = [] ∨
       type ≠ 5 ∧ type ≠ 4 ∧ skip = false ∧
        ∃ s, AlpParser.parse payload.length (stream (payload ++ after)) = .err .readError s) := by
  unfold front at h
  split at h
  · next hv =>
    left
    by_contra hlen
    have hh : ∀ (b : List UInt8), 261 < b.length → ∃ a1 a2 a3 a4 a5 a6 a7 r,
        b = a1 :: a2 :: a3 :: a4 :: a5 :: a6 :: a7 :: r ∧ 255 ≤ r.length := by
      intro b hb
      match b, hb with
      | a1 :: a2 :: a3 :: a4 :: a5 :: a6 :: a7 :: r, hb =>
        exact ⟨_, _, _, _, _, _, _, _, rfl, by simp only [List.length_cons] at hb; omega⟩
    obtain ⟨a1, a2, a3, a4, a5, a6, a7, r, rfl, hr⟩ := hh b (by omega)
    have ha5 := a5.toNat_lt
    unfold view at hv
    simp only at hv
    rw [if_neg (show ¬ r.length < a5.toNat by omega)] at hv
    (repeat' split at hv) <;> cases hv
  · cases h
  · cases h
  · next c t l rest hv =>
    right
    obtain ⟨hl, hlr, hb⟩ := view_valid.1 hv
    have e4 : ((t.toNat : Int) = 4) ↔ t = 4 := u8_eq_iff t 4 (by omega)
    have e5 : ((t.toNat : Int) = 5) ↔ t = 5 := u8_eq_iff t 5 (by omega)
    have hpl : (rest.take l).length = l := by simp [hlr]
    refine ⟨c, t, rest.take l, rest.drop l, ?_, by omega, ?_⟩
    · rw [hb, frame, hpl, List.append_assoc, List.take_append_drop]
    split at h
    · cases h
    · next s hbody =>
      have hnb : ∀ f : List UInt8 → Msg,
          (P.bytes l >>= fun b => (Pure.pure (f b) : P Msg)) ⟨56, bytesToBits rest⟩ ≠
            .err .readError s := by
        intro f
        rw [P.bind_apply, bytes_take _ _ _ hlr]
        intro h; cases h
      unfold body at hbody
      by_cases h5 : t = 5
      · rw [if_pos (e5.2 h5)] at hbody
        cases rest with
        | nil => exact .inl ⟨h5, by simp, by simp⟩
        | cons y ys => rw [P.bind_apply, uint8_cons] at hbody; cases hbody
      · rw [if_neg (fun e => h5 (e5.1 e))] at hbody
        by_cases h4 : t = 4
        · rw [if_pos (e4.2 h4)] at hbody
          exact absurd hbody (hnb _)
        · rw [if_neg (fun e => h4 (e4.1 e))] at hbody
          cases skip with
          | true => exact absurd hbody (hnb _)
          | false =>
            rw [if_neg (by simp), P.bind_apply] at hbody
            refine .inr ⟨h5, h4, rfl, ?_⟩
            rw [List.take_append_drop, hpl]
            have hsp0 := AlpParser.parse_spec l (stream rest) (by norm_num [stream])
            have hsp := AlpParser.parse_spec l ⟨56, bytesToBits rest⟩ (by norm_num)
            cases hp0 : AlpParser.parse l (stream rest) with
            | ok c0 s0 =>
              rw [hp0] at hsp0
              obtain ⟨d, e1, -, -, -, e6⟩ := hsp0
              rw [stream] at e1
              simp only at e1
              rw [e1, e6 56 _ (by norm_num)] at hbody
              cases hbody
            | err e s0 =>
              by_cases he : e = .readError
              · exact ⟨s0, by rw [he]⟩
              · rw [hp0] at hsp0
                obtain ⟨d, e1, -, -, e6⟩ := hsp0
                rw [stream] at e1
                simp only at e1
                have := e6 he 56 s0.rest (by norm_num)
                rw [e1, this] at hbody
                injection hbody with h1 h2
                exact absurd h1 he
    · cases h
    · cases h

end Verif.Serial
