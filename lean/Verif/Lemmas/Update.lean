import Verif.Spec.Update

/-! Sending a file in pieces. -/

namespace Verif.Update

/-- The pieces of a file. -/
def pieces (length : Nat) (content : List UInt8) : Nat → List (Nat × List UInt8)
  | 0 => []
  | k + 1 => (length, content.take 239) :: pieces (length + 239) (content.drop 239) k

theorem pieces_length (l : Nat) (c : List UInt8) (k : Nat) : (pieces l c k).length = k := by
  induction k generalizing l c with
  | zero => rfl
  | succ k ih => simp [pieces, ih]

theorem chunk_eq (rand : UInt8) (n : Nat) (bs : List UInt8) :
    chunkCommand rand n bs = Command.createWithWriteFileAction rand 200 (ords bs) n .HOST none := rfl

theorem chunk_cases (rand : UInt8) (n : Nat) {bs : List UInt8} (h : bs ≠ []) (hl : bs.length ≤ 239) :
    (n ≤ 0x3FFFFFFF ∧ ∃ c, chunkCommand rand n bs = .ok c ∧ Sends c rand 200 (n, bs)) ∨
    (0x3FFFFFFF < n ∧ chunkCommand rand n bs = .error .valueError) := by
  have hx := C23_write_file_partial rand 200 (ords bs) n .HOST none rfl (by simpa [ords] using h)
  have e : (ords bs).length = bs.length := by simp [ords]
  have hB : ∀ x ∈ ords bs, 0 ≤ x ∧ x ≤ 255 := isBytes_ords bs
  rw [e] at hx
  rw [chunk_eq]
  by_cases hn : n ≤ 0x3FFFFFFF
  · obtain ⟨c, hc, hy⟩ := hx.1 ⟨⟨by decide, by omega⟩, by omega, hB⟩
    refine .inl ⟨hn, c, hc, ?_⟩
    have h1 : byteFields (ords bs) = bs.map fun b => (8, b.toNat) := by
      simp [byteFields, ords]
    rw [h1] at hy
    simpa [Sends, forwardFields] using hy
  · exact .inr ⟨by omega, hx.2 fun hk => hn (by omega)⟩

theorem worked_true {as : List Command} (h : worked as = .ok true) : Confirmed as := by
  induction as with
  | nil => cases h
  | cons a as ih =>
    unfold worked at h
    split at h
    · next h1 =>
      split at h
      · cases h
      · next e he =>
        cases e with
        | false => exact ⟨a, by simp, h1, he⟩
        | true =>
          cases hw : worked as with
          | error e => rw [hw] at h; cases h
          | ok w =>
            rw [hw] at h
            cases w
            · cases h
            · obtain ⟨b, hb, x⟩ := ih hw
              exact ⟨b, by simp [hb], x⟩
    · obtain ⟨b, hb, x⟩ := ih h
      exact ⟨b, by simp [hb], x⟩

theorem worked_false {as : List Command} (h : worked as = .ok false) : ¬ Confirmed as := by
  induction as with
  | nil => rintro ⟨a, ha, -⟩; cases ha
  | cons a as ih =>
    unfold worked at h
    split at h
    · next h1 =>
      split at h
      · cases h
      · next e he =>
        cases hw : worked as with
        | error e => rw [hw] at h; cases h
        | ok w =>
          rw [hw] at h
          cases e with
          | false => cases h
          | true =>
            cases w
            · rintro ⟨b, hb, x⟩
              rcases List.mem_cons.1 hb with rfl | hb
              · rw [he] at x; exact absurd x.2 (by simp)
              · exact ih hw ⟨b, hb, x⟩
            · cases h
    · next h1 =>
      rintro ⟨b, hb, x⟩
      rcases List.mem_cons.1 hb with rfl | hb
      · exact h1 x.1
      · exact ih h ⟨b, hb, x⟩

theorem worked_confirmed {as : List Command}
    (ha : ∀ a ∈ as, a.executionCompleted = true → a.completedWithError ≠ none) (h : Confirmed as) :
    worked as = .ok true := by
  have : ∃ b, worked as = .ok b := by
    clear h
    induction as with
    | nil => exact ⟨false, rfl⟩
    | cons a as ih =>
      obtain ⟨b, hb⟩ := ih fun x hx => ha x (by simp [hx])
      unfold worked
      split
      · next h1 =>
        have := ha a (by simp) h1
        split
        · next h2 => exact absurd h2 this
        · rw [hb]; exact ⟨_, rfl⟩
      · exact ⟨b, hb⟩
  obtain ⟨b, hb⟩ := this
  cases b
  · exact absurd h (worked_false hb)
  · exact hb

/-- What the loop sends. -/
theorem loop_sends (rand : Nat → UInt8) (exec : Exec) (n l : Nat) (content : List UInt8) :
    (∀ i c w, (loop rand exec n l content).1[i]? = some c →
      (pieces l content (loop rand exec n l content).1.length)[i]? = some w →
      Sends c (rand (n + i)) 200 w ∧ w.2 ≠ [] ∧ w.2.length ≤ 239 ∧ w.1 ≤ 0x3FFFFFFF) ∧
    ((loop rand exec n l content).2 = .done → content.length ≤ 239 * (loop rand exec n l content).1.length) ∧
    (∀ i c, (loop rand exec n l content).1[i]? = some c →
      (i + 1 < (loop rand exec n l content).1.length ∨ (loop rand exec n l content).2 = .done) →
      ∃ answers, exec (n + i) c = .ok answers ∧ Confirmed answers) ∧
    ((loop rand exec n l content).2 = .failed →
      ∃ c answers, (loop rand exec n l content).1.getLast? = some c ∧
        exec (n + (loop rand exec n l content).1.length - 1) c = .ok answers ∧ ¬ Confirmed answers) ∧
    239 * (loop rand exec n l content).1.length < content.length + 239 := by
  induction n, l, content using loop.induct rand exec with
  | case1 n l =>
    rw [loop]
    simp
  | case2 n l content hne e he =>
    rw [loop, dif_neg hne, he]
    have := List.length_pos_iff.2 hne
    simp [this]
  | case3 n l content hne c hc e he =>
    rw [loop, dif_neg hne, hc]
    simp only [he]
    have := List.length_pos_iff.2 hne
    have hp : content.take 239 ≠ [] := by simp [hne]
    have hq : (content.take 239).length ≤ 239 := by simp
    rcases chunk_cases (rand n) l hp hq with ⟨hl, c', h1, h2⟩ | ⟨-, h1⟩
    · rw [hc] at h1
      cases h1
      refine ⟨?_, by simp, by simp, by simp, by simp; omega⟩
      rintro (_ | i) c' w h3 h4
      · cases h3; cases h4
        exact ⟨h2, hp, hq, hl⟩
      · simp at h3
    · rw [hc] at h1; cases h1
  | case4 n l content hne c hc answ he e hw =>
    rw [loop, dif_neg hne, hc]
    simp only [he, hw]
    have := List.length_pos_iff.2 hne
    have hp : content.take 239 ≠ [] := by simp [hne]
    have hq : (content.take 239).length ≤ 239 := by simp
    rcases chunk_cases (rand n) l hp hq with ⟨hl, c', h1, h2⟩ | ⟨-, h1⟩
    · rw [hc] at h1
      cases h1
      refine ⟨?_, by simp, by simp, by simp, by simp; omega⟩
      rintro (_ | i) c' w h3 h4
      · cases h3; cases h4
        exact ⟨h2, hp, hq, hl⟩
      · simp at h3
    · rw [hc] at h1; cases h1
  | case5 n l content hne c hc answ he hw =>
    rw [loop, dif_neg hne, hc]
    simp only [he, hw]
    have := List.length_pos_iff.2 hne
    have hp : content.take 239 ≠ [] := by simp [hne]
    have hq : (content.take 239).length ≤ 239 := by simp
    rcases chunk_cases (rand n) l hp hq with ⟨hl, c', h1, h2⟩ | ⟨-, h1⟩
    · rw [hc] at h1
      cases h1
      refine ⟨?_, by simp, by simp, fun _ => ⟨c, answ, rfl, ?_, worked_false hw⟩, by simp; omega⟩
      · rintro (_ | i) c' w h3 h4
        · cases h3; cases h4
          exact ⟨h2, hp, hq, hl⟩
        · simp at h3
      · simpa using he
    · rw [hc] at h1; cases h1
  | case6 n l content hne c hc answ he hw ih =>
    rw [loop, dif_neg hne, hc]
    simp only [he, hw]
    obtain ⟨i1, i2, i3, i4, i5⟩ := ih
    generalize loop rand exec (n + 1) (l + 239) (content.drop 239) = r at i1 i2 i3 i4 i5 ⊢
    have hp : content.take 239 ≠ [] := by simp [hne]
    have hq : (content.take 239).length ≤ 239 := by simp
    simp only [List.length_drop] at i2 i5
    have := List.length_pos_iff.2 hne
    rcases chunk_cases (rand n) l hp hq with ⟨hl, c', h1, h2⟩ | ⟨-, h1⟩
    · rw [hc] at h1
      cases h1
      refine ⟨?_, ?_, ?_, ?_, ?_⟩
      · rintro (_ | i) c' w h3 h4
        · cases h3; cases h4
          exact ⟨h2, hp, hq, hl⟩
        · have := i1 i c' w (by simpa using h3) (by simpa [pieces] using h4)
          rwa [show n + (i + 1) = n + 1 + i by omega]
      · intro h
        have := i2 h
        simp only [List.length_cons]
        omega
      · rintro (_ | i) c' h3 h4
        · cases h3
          exact ⟨answ, he, worked_true hw⟩
        · have := i3 i c' (by simpa using h3) (by simpa using h4)
          rwa [show n + (i + 1) = n + 1 + i by omega]
      · intro h
        obtain ⟨c', a, x1, x2, x3⟩ := i4 h
        refine ⟨c', a, ?_, ?_, x3⟩
        · cases hr : r.1 with
          | nil => rw [hr] at x1; cases x1
          | cons y ys => rw [hr] at x1; simpa using x1
        · cases hr : r.1 with
          | nil => rw [hr] at x1; cases x1
          | cons y ys =>
            rw [hr] at x2
            simp only [List.length_cons] at x2 ⊢
            rwa [show n + (ys.length + 1 + 1) - 1 = n + 1 + (ys.length + 1) - 1 by omega]
      · simp only [List.length_cons]
        omega
    · rw [hc] at h1; cases h1

/-- With confirmations only, the outcome depends on the size. -/
theorem loop_outcome (rand : Nat → UInt8) (exec : Exec) (n l : Nat) (content : List UInt8)
    (h : ∀ i c, ∃ answers, exec (n + i) c = .ok answers ∧ worked answers = .ok true) (k : Nat)
    (hl : l = 239 * k) :
    (loop rand exec n l content).2 =
      if content = [] ∨ l + content.length ≤ 239 * 4492644 then .done else .raised .valueError := by
  induction n, l, content using loop.induct rand exec generalizing k with
  | case1 n l => rw [loop]; simp
  | case2 n l content hne e he =>
    rw [loop, dif_neg hne, he]
    have := List.length_pos_iff.2 hne
    have hp : content.take 239 ≠ [] := by simp [hne]
    have hq : (content.take 239).length ≤ 239 := by simp
    rcases chunk_cases (rand n) l hp hq with ⟨hl, c', h1, h2⟩ | ⟨h0, h1⟩
    · rw [he] at h1; cases h1
    · rw [he] at h1
      cases h1
      rw [if_neg]
      rintro (h | h)
      · exact hne h
      · omega
  | case3 n l content hne c hc e he =>
    obtain ⟨a, ha, -⟩ := h 0 c
    rw [Nat.add_zero, he] at ha
    cases ha
  | case4 n l content hne c hc answ he e hw =>
    obtain ⟨a, ha, ha'⟩ := h 0 c
    rw [Nat.add_zero, he] at ha
    cases ha
    rw [hw] at ha'
    cases ha'
  | case5 n l content hne c hc answ he hw =>
    obtain ⟨a, ha, ha'⟩ := h 0 c
    rw [Nat.add_zero, he] at ha
    cases ha
    rw [hw] at ha'
    cases ha'
  | case6 n l content hne c hc answ he hw ih =>
    rw [loop, dif_neg hne, hc]
    simp only [he, hw]
    rw [ih (fun i c => by
      rw [show n + 1 + i = n + (i + 1) by omega]
      exact h (i + 1) c) (k + 1) (by omega)]
    have hlen := List.length_pos_iff.2 hne
    have hp : content.take 239 ≠ [] := by simp [hne]
    have hq : (content.take 239).length ≤ 239 := by simp
    have hll : l ≤ 0x3FFFFFFF := by
      rcases chunk_cases (rand n) l hp hq with ⟨hl, -⟩ | ⟨h0, h1⟩
      · exact hl
      · rw [hc] at h1; cases h1
    have hk : k ≤ 4492643 := by omega
    by_cases h1 : l + content.length ≤ 239 * 4492644
    · rw [if_pos (c := content = [] ∨ _) (.inr h1), if_pos]
      by_cases h2 : content.length ≤ 239
      · exact .inl (List.drop_eq_nil_of_le h2)
      · right
        simp only [List.length_drop]
        omega
    · rw [if_neg, if_neg]
      · rintro (h2 | h2)
        · exact hne h2
        · exact h1 h2
      · rintro (h2 | h2)
        · have := List.drop_eq_nil_iff.1 h2
          omega
        · simp only [List.length_drop] at h2
          omega

theorem store_eq {file data : List UInt8} {l : Nat} (hf : l ≤ file.length) :
    store file (l, data) = file.take l ++ data ++ file.drop (l + data.length) := by
  simp [store, show l - file.length = 0 by omega]

theorem image_pieces (l : Nat) (content file : List UInt8) (k : Nat) (hf : l ≤ file.length)
    (hk : 239 * k < content.length + 239) :
    image (pieces l content k) file =
      file.take l ++ content.take (239 * k) ++ file.drop (l + min (239 * k) content.length) := by
  induction k generalizing l content file with
  | zero => simp [pieces, image]
  | succ k ih =>
    change image (pieces (l + 239) (content.drop 239) k) (store file (l, content.take 239)) = _
    rw [store_eq hf]
    rcases Nat.eq_zero_or_pos k with rfl | hk0
    · simp [pieces, image]
    · have hc : 239 < content.length := by omega
      have e : (content.take 239).length = 239 := by simp; omega
      rw [e]
      have e2 : (file.take l ++ content.take 239).length = l + 239 := by
        rw [List.length_append, e, List.length_take]; omega
      rw [ih _ _ _ (by rw [List.length_append, e2]; omega) (by rw [List.length_drop]; omega)]
      rw [List.take_append_of_le_length (by omega), List.take_of_length_le (by omega),
        List.drop_append, e2]
      have e3 : content.take (239 * (k + 1)) = content.take 239 ++ (content.drop 239).take (239 * k) := by
        rw [show 239 * (k + 1) = 239 + 239 * k by omega, List.take_add]
      have e4 : List.drop (l + 239 + min (239 * k) (content.drop 239).length)
          (file.take l ++ content.take 239) = [] := List.drop_eq_nil_of_le (by omega)
      rw [e4, e3, List.nil_append, List.drop_drop, List.length_drop]
      rw [show l + 239 + (l + 239 + min (239 * k) (content.length - 239) - (l + 239)) =
        l + min (239 * (k + 1)) content.length by omega]
      simp only [List.append_assoc]

end Verif.Update
