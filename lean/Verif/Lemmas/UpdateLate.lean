import Verif.Lemmas.Caught
import Verif.Lemmas.UpdateDevice
import Verif.Spec.UpdateLate
import Verif.Props.Print

/-! Helper lemmas: the update program when calls time out and answers come late. -/

namespace Verif.Modem.Upl

open Verif Verif.Serial Verif.Modem.Lt

variable {D : Type}

theorem request_sendable {tag : UInt8} {ops : List FileOp} (hv : ∀ op ∈ ops, op.Valid)
    (hl : (requestBytes tag ops).length ≤ 255) : sendable (request tag ops) = some (requestBytes tag ops) := by
  unfold sendable
  rw [show bytearray (request tag ops).iter = .ok (requestBytes tag ops) from request_emits tag hv]
  exact if_pos hl

theorem request_taggable (tag : UInt8) (ops : List FileOp) : Taggable (request tag ops) tag.toNat := ⟨rfl, rfl, rfl⟩

/-- A completed answer says whether there was an error. -/
theorem answers_say {tag : Int} {ps : List (List UInt8)} {rs : List Command} (h : Answers tag ps rs) :
    ∀ a ∈ rs, a.executionCompleted = true → a.completedWithError ≠ none := by
  have hm := h.meaning
  clear h
  intro a ha
  induction hm with
  | nil => cases ha
  | cons h _ ih =>
    rcases List.mem_cons.1 ha with rfl | ha
    · obtain ⟨-, h⟩ := h
      cases h with
      | alp _ _ _ _ _ _ h =>
        exact (Print.C61_command_iff ⟨fun _ => [], fun _ => [], fun _ => [], fun _ => [], fun _ => []⟩ _).1 (Print.C61_command_parsed _ h)
    · exact ih ha

theorem worked_ok {as : List Command} (ha : ∀ a ∈ as, a.executionCompleted = true → a.completedWithError ≠ none) :
    ∃ b, Update.worked as = .ok b := by
  induction as with
  | nil => exact ⟨false, rfl⟩
  | cons a as ih =>
    obtain ⟨b, hb⟩ := ih fun x hx => ha x (by simp [hx])
    unfold Update.worked
    split
    · next h1 =>
      have := ha a (by simp) h1
      split
      · next h2 => exact absurd h2 this
      · rw [hb]; exact ⟨_, rfl⟩
    · exact ⟨b, hb⟩

theorem program_succ (rand : Nat → UInt8) (file : List UInt8) (k : Nat) :
    programBytes rand file (k + 1) = programBytes rand file k ++ [pieceBytes rand file k] := by
  simp [programBytes, List.range_succ]

theorem loop_late {config : Config} (hk : config.skip = false) {g : Gateway D} (hg : g.Conforms) {d : D}
    {base : List (List UInt8)} (rand : Nat → UInt8) (exec : Update.Exec) (file : List UInt8) {s' : Net D} (k : Nat) :
    ∀ {s : Net D} {before : List LateEvent} {qa qb : List Command}, k ≤ pieceCount file →
    (∀ e ∈ before, Tagged e) → (Net.start config d).runLate g before = some s →
    (Net.start config d).requested g before = qa ++ qb → (qa ++ qb).filterMap sendable = base ++ programBytes rand file k →
    Ct.Caught g d s (qa.filterMap sendable) → (∀ q ∈ qb, q.tagId ≠ some ((rand (k + 1)).toNat : Int)) →
    (0 < k → s.data = (g.replies d (base ++ programBytes rand file k)).1) →
    Net.Series (Net.CalledCalmly g) exec (k + 1) (Update.loop rand exec (k + 1) (239 * k) (file.drop (239 * k))).1 s s' →
    ∃ k', k ≤ k' ∧ k' ≤ pieceCount file ∧ (∀ j, k ≤ j → j < k' → 239 * j < 2 ^ 30 ∧ g.Stored d base rand file j) ∧
      ((Update.loop rand exec (k + 1) (239 * k) (file.drop (239 * k))).2 = .done ∧ k' = pieceCount file ∧
          (0 < k' → s'.data = (g.replies d (base ++ programBytes rand file k')).1) ∨
        (Update.loop rand exec (k + 1) (239 * k) (file.drop (239 * k))).2 = .failed ∧ k' < pieceCount file ∧
          (exec (k' + 1) (request (rand (k' + 1)) [piece file k']) = .ok [] ∨ ¬ g.Stored d base rand file k') ∨
        (Update.loop rand exec (k + 1) (239 * k) (file.drop (239 * k))).2 = .raised .valueError ∧ k' < pieceCount file ∧
          2 ^ 30 ≤ 239 * k') := by
  obtain ⟨m, hm⟩ : ∃ m, file.length - 239 * k = m := ⟨_, rfl⟩
  induction m using Nat.strong_induction_on generalizing k with
  | _ m ih =>
  intro s before qa qb hkc hp h0 hq hfm hca hf hdata hser
  rw [Update.loop] at hser ⊢
  by_cases hne : file.drop (239 * k) = []
  · rw [dif_pos hne] at hser ⊢
    have := List.drop_eq_nil_iff.1 hne
    have hk' : k = pieceCount file := by
      unfold pieceCount at hkc ⊢
      omega
    cases hser
    exact ⟨k, Nat.le_refl _, hkc, fun j h1 h2 => by omega, .inl ⟨rfl, hk', hdata⟩⟩
  rw [dif_neg hne] at hser ⊢
  have hlen : 239 * k < file.length := by
    have := List.length_pos_iff.2 hne
    simp only [List.length_drop] at this
    omega
  have hlt : k < pieceCount file := by unfold pieceCount; omega
  by_cases ho : 239 * k < 2 ^ 30
  swap
  · rw [Upd.chunk_beyond _ _ ho] at hser ⊢
    exact ⟨k, Nat.le_refl _, hkc, fun j h1 h2 => by omega, .inr (.inr ⟨rfl, hlt, by omega⟩)⟩
  have hl : ((file.drop (239 * k)).take 239).length ≤ 239 := by simp
  rw [Upd.chunk_request (rand (k + 1)) ho hl] at hser ⊢
  simp only at hser ⊢
  have hv := Upd.piece_valid (file := 200) ho (by simp only [ne_eq, List.take_eq_nil_iff, hne]; decide) hl
  have hfit := Upd.piece_fits (rand (k + 1)) 200 (239 * k) hl
  have hsend : sendable (request (rand (k + 1)) [piece file k]) = some (pieceBytes rand file k) :=
    request_sendable hv hfit
  have htag := request_taggable (rand (k + 1)) [piece file k]
  rw [show FileOp.write 200 (239 * k) ((file.drop (239 * k)).take 239) = piece file k from rfl] at hser ⊢
  have key : ∀ {cs : List Command}, Net.Series (Net.CalledCalmly g) exec (k + 1)
      (request (rand (k + 1)) [piece file k] :: cs) s s' →
      ∃ s1, Net.CalledCalmly g (request (rand (k + 1)) [piece file k]) s
          (exec (k + 1) (request (rand (k + 1)) [piece file k])) s1 ∧
        Net.Series (Net.CalledCalmly g) exec (k + 2) cs s1 s' := by
    intro cs hx
    cases hx with
    | cons _ _ _ _ s1 _ h1 h2 => exact ⟨s1, h1, h2⟩
  have hstored : ∀ rs, g.Reply d ((qa ++ qb).filterMap sendable) (rand (k + 1)).toNat (pieceBytes rand file k) rs →
      (Update.Confirmed rs ↔ g.Stored d base rand file k) := by
    intro rs h1
    unfold Gateway.Reply at h1
    rw [hfm] at h1
    constructor
    · rintro ⟨x, h2, h3⟩
      exact ⟨rs, x, h1, h2, h3⟩
    · rintro ⟨rs', x, h2, h3, h4⟩
      rw [meaning_unique h2.meaning h1.meaning] at h3
      exact ⟨x, h3, h4⟩
  cases hex : exec (k + 1) (request (rand (k + 1)) [piece file k]) with
  | error e =>
    simp only [hex] at hser
    obtain ⟨s1, h1, -⟩ := key hser
    obtain ⟨es, -, -, -, h2 | ⟨rs, h2, -⟩⟩ := Ct.called hk hg htag hsend hp h0 hq hca hf h1 <;>
      rw [hex] at h2 <;> cases h2
  | ok rs =>
    simp only [hex] at hser ⊢
    have hcall : ∃ s1, Net.CalledCalmly g (request (rand (k + 1)) [piece file k]) s (.ok rs) s1 := by
      rw [← hex]
      split at hser <;> exact ⟨_, (key hser).choose_spec.1⟩
    obtain ⟨s1, h1⟩ := hcall
    obtain ⟨es, -, -, -, h2⟩ := Ct.called hk hg htag hsend hp h0 hq hca hf h1
    have hsay : ∀ a ∈ rs, a.executionCompleted = true → a.completedWithError ≠ none := by
      rcases h2 with h2 | ⟨rs', h2, h3, -⟩
      · cases h2; simp
      · cases h2; exact answers_say h3
    cases hw : Update.worked rs with
    | error e =>
      exfalso
      obtain ⟨b, hb⟩ := worked_ok hsay
      rw [hb] at hw
      cases hw
    | ok b =>
      cases b with
      | false =>
        simp only [hw] at hser ⊢
        refine ⟨k, Nat.le_refl _, hkc, fun j h1 h2 => by omega, .inr (.inl ⟨by trivial, hlt, ?_⟩)⟩
        rcases h2 with h2 | ⟨rs', h2, h3, -⟩
        · cases h2; exact .inl hex
        · cases h2
          exact .inr fun h => Update.worked_false hw ((hstored _ h3).2 h)
      | true =>
        simp only [hw] at hser ⊢
        obtain ⟨s1, h1, h3⟩ := key hser
        rw [hex] at h1
        obtain ⟨es, c1, c2, c3, h4 | ⟨rs', h4, h5, h6, h7⟩⟩ := Ct.called hk hg htag hsend hp h0 hq hca hf h1
        · cases h4; cases hw
        cases h4
        have hst := (hstored _ h5).1 (Update.worked_true hw)
        rw [show 239 * k + 239 = 239 * (k + 1) by omega, List.drop_drop, ← Nat.mul_succ] at h3 ⊢
        have hfm' : (qa ++ qb ++ [request (rand (k + 1)) [piece file k]]).filterMap sendable =
            base ++ programBytes rand file (k + 1) := by
          rw [List.filterMap_append, hfm, program_succ]
          simp [hsend]
        obtain ⟨k', e1, e2, e3, e4⟩ := ih (file.length - 239 * (k + 1)) (by omega) (k + 1) rfl
          (qa := qa ++ qb ++ [request (rand (k + 1)) [piece file k]]) (qb := []) hlt c2 c1 (by rw [c3]; simp)
          (by rw [List.append_nil]; exact hfm') h7 (by simp) (by
            intro _
            rw [h6, hfm, program_succ, List.append_assoc]) h3
        refine ⟨k', by omega, e2, fun j f1 f2 => ?_, e4⟩
        rcases Nat.eq_or_lt_of_le f1 with rfl | f1
        · exact ⟨ho, hst⟩
        · exact e3 j f1 f2

/-- The commands of the loop. -/
theorem loop_commands (rand : Nat → UInt8) (exec : Update.Exec) (file : List UInt8) (k : Nat) :
    ∃ m, (∀ i < m, 239 * (k + i) < 2 ^ 30 ∧ 239 * (k + i) < file.length) ∧
      (Update.loop rand exec (k + 1) (239 * k) (file.drop (239 * k))).1 =
        (List.range m).map fun i => request (rand (k + i + 1)) [piece file (k + i)] := by
  obtain ⟨m, hm⟩ : ∃ m, file.length - 239 * k = m := ⟨_, rfl⟩
  induction m using Nat.strong_induction_on generalizing k with
  | _ m ih =>
  rw [Update.loop]
  by_cases hne : file.drop (239 * k) = []
  · rw [dif_pos hne]; exact ⟨0, by simp, rfl⟩
  rw [dif_neg hne]
  have hlen : 239 * k < file.length := by
    have := List.length_pos_iff.2 hne
    simp only [List.length_drop] at this
    omega
  by_cases ho : 239 * k < 2 ^ 30
  swap
  · rw [Upd.chunk_beyond _ _ ho]; exact ⟨0, by simp, rfl⟩
  have hl : ((file.drop (239 * k)).take 239).length ≤ 239 := by simp
  rw [Upd.chunk_request (rand (k + 1)) ho hl]
  have one : ∃ m, (∀ i < m, 239 * (k + i) < 2 ^ 30 ∧ 239 * (k + i) < file.length) ∧
      [request (rand (k + 1)) [FileOp.write 200 (239 * k) ((file.drop (239 * k)).take 239)]] =
        (List.range m).map fun i => request (rand (k + i + 1)) [piece file (k + i)] := by
    refine ⟨1, ?_, rfl⟩
    intro i hi
    obtain rfl : i = 0 := by omega
    exact ⟨ho, hlen⟩
  simp only
  split
  · exact one
  · split
    · exact one
    · exact one
    · obtain ⟨m', h1, h2⟩ := ih (file.length - 239 * (k + 1)) (by omega) (k + 1) rfl
      refine ⟨m' + 1, ?_, ?_⟩
      · intro i hi
        cases i with
        | zero => exact ⟨ho, hlen⟩
        | succ i =>
          have := h1 i (by omega)
          rw [show k + (i + 1) = k + 1 + i by omega]
          exact this
      · rw [show 239 * k + 239 = 239 * (k + 1) by omega, List.drop_drop, ← Nat.mul_succ, h2, List.range_succ_eq_map,
          List.map_cons, List.map_map]
        refine congrArg (_ :: ·) (List.map_congr_left fun i _ => ?_)
        show _ = request (rand (k + (i + 1) + 1)) [piece file (k + (i + 1))]
        rw [show k + (i + 1) = k + 1 + i by omega]

theorem piece_sendable (rand : Nat → UInt8) {file : List UInt8} {k : Nat} (ho : 239 * k < 2 ^ 30)
    (hl : 239 * k < file.length) :
    sendable (request (rand (k + 1)) [piece file k]) = some (pieceBytes rand file k) := by
  have h1 : ((file.drop (239 * k)).take 239).length ≤ 239 := by simp
  refine request_sendable (Upd.piece_valid (file := 200) ho ?_ h1) (Upd.piece_fits (rand (k + 1)) 200 (239 * k) h1)
  intro h
  have := congrArg List.length h
  simp at this
  omega

theorem first_sendable (tag : UInt8) :
    sendable (request tag [.write 199 0 [0]]) = some (requestBytes tag [.write 199 0 [0]]) :=
  request_sendable (Upd.piece_valid (by decide) (by decide) (by decide)) (Upd.piece_fits tag 199 0 (by decide))

/-- The commands of the program. -/
theorem update_commands (rand : Nat → UInt8) (exec : Update.Exec) (file : List UInt8) :
    ∃ m, m ≤ pieceCount file ∧ (Update.update rand exec file).1.filterMap sendable = programBytes rand file m ∧
      ∀ c ∈ (Update.update rand exec file).1, ∃ tag, Taggable c tag := by
  unfold Update.update
  rw [Upd.first_request]
  simp only
  split
  · refine ⟨0, Nat.zero_le _, by simp [first_sendable, programBytes], ?_⟩
    intro c hc
    rw [List.mem_singleton.1 hc]
    exact ⟨_, request_taggable _ _⟩
  · obtain ⟨m, h1, h2⟩ := loop_commands rand exec file 0
    simp only [Nat.mul_zero, List.drop_zero, Nat.zero_add] at h1 h2
    refine ⟨m, ?_, ?_, ?_⟩
    · cases m with
      | zero => exact Nat.zero_le _
      | succ m =>
        have := (h1 m (by omega)).2
        unfold pieceCount
        omega
    · simp only [h2, List.filterMap_cons, first_sendable, programBytes]
      congr 1
      rw [List.filterMap_map, ← List.filterMap_eq_map]
      refine List.filterMap_congr fun i hi => ?_
      obtain ⟨h3, h4⟩ := h1 i (List.mem_range.1 hi)
      simpa using piece_sendable rand h3 h4
    · intro c hc
      simp only [h2] at hc
      rcases List.mem_cons.1 hc with rfl | hc
      · exact ⟨_, request_taggable _ _⟩
      · obtain ⟨i, -, rfl⟩ := List.mem_map.1 hc
        exact ⟨_, request_taggable _ _⟩

theorem program_prefix (rand : Nat → UInt8) (file : List UInt8) {m n : Nat} (h : m ≤ n) :
    programBytes rand file m <+: programBytes rand file n := by
  induction n with
  | zero => obtain rfl : m = 0 := by omega
            exact List.prefix_rfl
  | succ n ih =>
    rcases Nat.eq_or_lt_of_le h with rfl | h
    · exact List.prefix_rfl
    · rw [program_succ]
      exact (ih (by omega)).trans (List.prefix_append _ _)

/-- The calls as a run. -/
theorem series_run {g : Gateway D} {exec : Update.Exec} {n : Nat} {cs : List Command} {s s' : Net D}
    (ht : ∀ c ∈ cs, ∃ tag, Taggable c tag) (h : Net.Series (Net.Called g) exec n cs s s') :
    ∃ es, s.runLate g es = some s' ∧ (∀ e ∈ es, Tagged e) ∧ s.requested g es = cs := by
  induction h with
  | nil => exact ⟨[], rfl, by simp, rfl⟩
  | cons n c cs s s1 s' h _ ih =>
    obtain ⟨es, o, h1, h2, -⟩ := h
    obtain ⟨tag, hc⟩ := ht c (by simp)
    obtain ⟨fs, b1, b2, b3⟩ := ih fun c hc => ht c (by simp [hc])
    refine ⟨_ ++ fs, runLate_append h2 b1, ?_, ?_⟩
    · intro e he
      rcases List.mem_append.1 he with he | he
      · exact Rt.tagged_call hc h1 e he
      · exact b2 e he
    · rw [requested_append h2, Rt.requested_call h1 h2, b3]; rfl

/-- The whole file is in the device if it confirms every piece, and confirms a write only if it has done it. -/
theorem stored_file {g : Gateway D} {d : D} {base : List (List UInt8)} {rand : Nat → UInt8} {file : List UInt8}
    (h1 : ∀ j < pieceCount file, 239 * j < 2 ^ 30 ∧ g.Stored d base rand file j) (files : D → UInt8 → Nat → UInt8)
    (hw : ∀ x tag f o data, (FileOp.write f o data).Valid → g.Confirms x (tag : UInt8).toNat
        (requestBytes tag [.write f o data]) →
      files (g.handle x (requestBytes tag [.write f o data])).1 = memory.write (files x) f o data) :
    ∀ i, (hi : i < file.length) →
      files (g.replies d (base ++ programBytes rand file (pieceCount file))).1 200 i = file[i] := by
  intro i hi
  have step : ∀ j, j ≤ pieceCount file → i < 239 * j →
      files (g.replies d (base ++ programBytes rand file j)).1 200 i = file[i] := by
    intro j
    induction j with
    | zero => intro _ h; omega
    | succ j ih =>
      intro hj hij
      rw [program_succ, ← List.append_assoc, Gwa.replies_snoc]
      obtain ⟨a1, a2⟩ := h1 j (by omega)
      have a3 : (FileOp.write 200 (239 * j) ((file.drop (239 * j)).take 239)).Valid := by
        refine Upd.piece_valid (file := 200) a1 ?_ (by simp) _ (List.mem_singleton.2 rfl)
        intro hx
        have := congrArg List.length hx
        unfold pieceCount at hj
        simp at this
        omega
      rw [show pieceBytes rand file j = requestBytes (rand (j + 1)) [.write 200 (239 * j)
        ((file.drop (239 * j)).take 239)] from rfl, hw _ _ _ _ _ a3 a2]
      simp only [memory]
      by_cases hlow : i < 239 * j
      · rw [if_neg (by rintro ⟨-, h, -⟩; omega)]
        exact ih (by omega) hlow
      · have hlen : i - 239 * j < ((file.drop (239 * j)).take 239).length := by simp; omega
        rw [if_pos ⟨trivial, by omega, by omega⟩, List.getElem?_eq_getElem hlen]
        simp only [Option.getD_some, List.getElem_take, List.getElem_drop]
        congr 1
        omega
  refine step _ (Nat.le_refl _) ?_
  unfold pieceCount
  omega

end Verif.Modem.Upl
