import Verif.Spec.ModemCallers
import Verif.Props.SerialFrames

/-! Lemmas about concurrent callers of `execute_command`. -/

namespace Verif.Modem

open Verif Verif.Serial

/-- The command in progress. -/
def inCall : Option Thread → List Command
  | some (.run _ cmd _ _ _) => [cmd]
  | _ => []

def Place.isWriting : Place → Bool
  | .writing _ => true
  | _ => false

theorem getElem?_set' {α : Type} {l : List α} {i : Nat} {x y : α} (h : l[i]? = some y) (j : Nat) :
    (l.set i x)[j]? = if j = i then some x else l[j]? := by
  have hi : i < l.length := by
    rcases Nat.lt_or_ge i l.length with h' | h'
    · exact h'
    · rw [List.getElem?_eq_none h'] at h; cases h
  rw [List.getElem?_set]
  by_cases hj : j = i
  · subst hj; simp [hi]
  · rw [if_neg (Ne.symm hj), if_neg hj]

structure LineInv (base : List UInt8) (es : List CallersEvent) (s : Callers) (order : List Line) : Prop where
  lock : ∀ (i : Nat), s.lock = some i ↔ ∃ r c a f t, s.threads[i]? = some (Thread.run (.writing r) c a f t)
  built : ∀ (i : Nat) p c a f t, s.threads[i]? = some (Thread.run p c a f t) →
    bytearray c.iter = .ok a ∧ (p ≠ .counter → ∃ n, f = frame n 1 a)
  bytes : s.inner.written ++ s.unwritten = base ++ (order.map Line.bytes).flatten
  calls : ∀ (i : Nat), ∃ done, callsOf i es = done ++ inCall s.threads[i]? ∧ done.length = (resultsOf i s).length
  sent : ∀ (i : Nat), (order.filter (fun l => l.thread = i)).map Line.payload =
    ((callsOf i es).zip (resultsOf i s)).filterMap sentBytes ++ inProgress s.threads[i]?

theorem unwritten_of_lock {s : Callers} (h : s.lock = none) : s.unwritten = [] := by
  unfold Callers.unwritten; rw [h]

/-- Other shared variables do not matter. -/
theorem LineInv.inner {base : List UInt8} {es : List CallersEvent} {s : Callers} {order : List Line}
    (h : LineInv base es s order)
    {x : State} (hx : x.written = s.inner.written) : LineInv base es { s with inner := x } order :=
  ⟨h.lock, h.built, by rw [← h.bytes, ← hx]; rfl, h.calls, h.sent⟩

/-- A thread that does not write goes on. -/
theorem LineInv.goto {base : List UInt8} {es : List CallersEvent} {s : Callers} {order : List Line}
    (h : LineInv base es s order)
    {i : Nat} {p p' : Place} {c : Command} {a f f' : List UInt8} {t : Int}
    (hi : s.threads[i]? = some (.run p c a f t)) (hp : p.isWriting = false) (hp' : p'.isWriting = false)
    (hpr : inProgress (some (.run p' c a f' t)) = inProgress (some (.run p c a f t)))
    (hf : ∃ n, f' = frame n 1 a) : LineInv base es (s.goto i (.run p' c a f' t)) order := by
  have hg := getElem?_set' (x := Thread.run p' c a f' t) hi
  have hnl : s.lock ≠ some i := by
    intro hl
    obtain ⟨r, c', a', f', t', h'⟩ := (h.lock i).1 hl
    rw [hi] at h'
    cases h'
    cases hp
  refine ⟨?_, ?_, ?_, ?_, ?_⟩
  · intro j
    show s.lock = some j ↔ ∃ r c a f t, (s.threads.set i _)[j]? = some (Thread.run (.writing r) c a f t)
    rw [hg]
    by_cases hj : j = i
    · subst hj
      rw [if_pos rfl]
      constructor
      · intro hl; exact absurd hl hnl
      · rintro ⟨r, c', a', f'', t', h'⟩
        cases h'
        cases hp'
    · rw [if_neg hj]; exact h.lock j
  · intro j q c' a' f'' t' hj
    change (s.threads.set i _)[j]? = some _ at hj
    rw [hg] at hj
    by_cases hji : j = i
    · rw [if_pos hji] at hj
      cases hj
      exact ⟨(h.built i _ _ _ _ _ hi).1, fun _ => hf⟩
    · rw [if_neg hji] at hj
      exact h.built j _ _ _ _ _ hj
  · rw [← h.bytes]
    show _ ++ Callers.unwritten _ = _
    congr 1
    unfold Callers.unwritten
    show (match s.lock with
      | none => []
      | some j => restOf (s.threads.set i _)[j]?) = _
    cases hl : s.lock with
    | none => rfl
    | some j =>
      simp only
      rw [hg, if_neg (by rintro rfl; exact hnl hl)]
  · intro j
    show ∃ done, callsOf j es = done ++ inCall (s.threads.set i _)[j]? ∧ _
    rw [hg]
    obtain ⟨done, h1, h2⟩ := h.calls j
    refine ⟨done, ?_, h2⟩
    by_cases hj : j = i
    · subst hj
      rw [if_pos rfl, h1, hi]
      rfl
    · rw [if_neg hj]; exact h1
  · intro j
    show _ = _ ++ inProgress (s.threads.set i _)[j]?
    rw [hg]
    by_cases hj : j = i
    · subst hj
      rw [if_pos rfl, hpr, ← hi]
      exact h.sent j
    · rw [if_neg hj]; exact h.sent j

theorem resultsOf_finish (s : Callers) (i : Nat) (o : Outcome) (j : Nat) :
    resultsOf j (s.finish i o) = if i = j then resultsOf j s ++ [o] else resultsOf j s := by
  unfold resultsOf Callers.finish
  simp only [List.filterMap_append]
  split
  · next h => simp [h]
  · next h => simp [h]

/-- A thread that does not write ends its call; the result is an exception exactly if nothing was written. -/
theorem LineInv.finish {base : List UInt8} {es : List CallersEvent} {s : Callers} {order : List Line}
    (h : LineInv base es s order)
    {i : Nat} {p : Place} {c : Command} {a f : List UInt8} {t : Int} {o : Outcome}
    (hi : s.threads[i]? = some (.run p c a f t)) (hp : p.isWriting = false)
    (ho : (sentBytes (c, o)).toList = inProgress (some (.run p c a f t))) : LineInv base es (s.finish i o) order := by
  have hg := getElem?_set' (x := Thread.idle) hi
  have hnl : s.lock ≠ some i := by
    intro hl
    obtain ⟨r, c', a', f', t', h'⟩ := (h.lock i).1 hl
    rw [hi] at h'
    cases h'
    cases hp
  refine ⟨?_, ?_, ?_, ?_, ?_⟩
  · intro j
    show s.lock = some j ↔ ∃ r c a f t, (s.threads.set i _)[j]? = some (Thread.run (.writing r) c a f t)
    rw [hg]
    by_cases hj : j = i
    · subst hj
      rw [if_pos rfl]
      constructor
      · intro hl; exact absurd hl hnl
      · rintro ⟨r, c', a', f'', t', h'⟩
        cases h'
    · rw [if_neg hj]; exact h.lock j
  · intro j q c' a' f'' t' hj
    change (s.threads.set i _)[j]? = some _ at hj
    rw [hg] at hj
    by_cases hji : j = i
    · rw [if_pos hji] at hj
      cases hj
    · rw [if_neg hji] at hj
      exact h.built j _ _ _ _ _ hj
  · rw [← h.bytes]
    show _ ++ Callers.unwritten _ = _
    congr 1
    unfold Callers.unwritten
    show (match s.lock with
      | none => []
      | some j => restOf (s.threads.set i _)[j]?) = _
    cases hl : s.lock with
    | none => rfl
    | some j =>
      simp only
      rw [hg, if_neg (by rintro rfl; exact hnl hl)]
  · intro j
    show ∃ done, callsOf j es = done ++ inCall (s.threads.set i _)[j]? ∧ _
    rw [hg, resultsOf_finish]
    obtain ⟨done, h1, h2⟩ := h.calls j
    by_cases hj : j = i
    · subst hj
      refine ⟨done ++ [c], ?_, by simp [h2]⟩
      rw [if_pos rfl, h1, hi]
      simp [inCall]
    · refine ⟨done, ?_, ?_⟩
      · rw [if_neg hj]; exact h1
      · rw [if_neg (Ne.symm hj)]; exact h2
  · intro j
    show _ = _ ++ inProgress (s.threads.set i _)[j]?
    rw [hg, resultsOf_finish]
    by_cases hj : j = i
    · subst hj
      obtain ⟨done, h1, h2⟩ := h.calls j
      have := h.sent j
      rw [hi, ← ho, h1, hi] at this
      rw [if_pos rfl, if_pos rfl, h1, hi, this]
      simp only [inCall]
      rw [List.zip_append h2]
      simp only [List.zip_cons_cons, List.zip_nil_right, List.filterMap_append, inProgress, List.append_nil]
      have hz : (done ++ [c]).zip (resultsOf j s) = done.zip (resultsOf j s) := by
        have := List.zip_append (r₁ := [c]) (r₂ := ([] : List Outcome)) h2
        simpa using this
      rw [hz]
      cases hs : sentBytes (c, o) <;> simp [hs]
    · rw [if_neg hj, if_neg (Ne.symm hj)]; exact h.sent j

theorem callsOf_append (i : Nat) (es : List CallersEvent) (e : CallersEvent) :
    callsOf i (es ++ [e]) = callsOf i es ++ callsOf i [e] := by
  unfold callsOf; rw [List.filterMap_append]

/-- Events that are not calls do not matter for the history. -/
theorem LineInv.event {base : List UInt8} {es : List CallersEvent} {s : Callers} {order : List Line}
    (h : LineInv base es s order)
    {e : CallersEvent} (he : ∀ i, callsOf i [e] = []) : LineInv base (es ++ [e]) s order := by
  refine ⟨h.lock, h.built, h.bytes, ?_, ?_⟩
  · intro i; rw [callsOf_append, he, List.append_nil]; exact h.calls i
  · intro i; rw [callsOf_append, he, List.append_nil]; exact h.sent i

/-- The bytes of a frame as line 66-70 of the parser put them together. -/
theorem head_frame {up : Int} {alp head : List UInt8}
    (h : bytearray (.int 0xC0 ++ .int 0 ++ .int up ++ .int 1 ++ .int alp.length) = .ok head) :
    0 ≤ up ∧ up ≤ 255 ∧ alp.length ≤ 255 ∧ head ++ [(Crc.calculateCrc alp).1, (Crc.calculateCrc alp).2] ++ alp =
      frame (UInt8.ofNat up.toNat) 1 alp := by
  have h0 : 0 ≤ up ∧ up ≤ 255 := by
    by_contra hc
    have : bytearray (.int up) = .error .valueError := by
      simp [Gen.int, bytearray, itemsToBytes, Item.toByte, hc]
    have hh : Emits (.int 0xC0 ++ .int 0) ([0xC0] ++ [0]) :=
      (Emits.int (i := 0xC0) (by decide) (by decide)).append (Emits.int (i := 0) (by decide) (by decide))
    unfold Emits at hh
    rw [bytearray_append, bytearray_append, bytearray_append, hh, this] at h
    cases h
  have h1 : alp.length ≤ 255 := by
    by_contra hc
    have : bytearray (.int (alp.length : Int)) = .error .valueError := by
      have : ¬ ((alp.length : Int) ≤ 255) := by omega
      simp [Gen.int, bytearray, itemsToBytes, Item.toByte, this]
    have hhead : Emits (.int 0xC0 ++ .int 0 ++ .int up ++ .int 1)
        ([0xC0] ++ [0] ++ [UInt8.ofNat up.toNat] ++ [1]) :=
      (((Emits.int (i := 0xC0) (by decide) (by decide)).append
        (Emits.int (i := 0) (by decide) (by decide))).append (Emits.int h0.1 h0.2)).append
        (Emits.int (i := 1) (by decide) (by decide))
    unfold Emits at hhead
    rw [bytearray_append, hhead, this] at h
    cases h
  refine ⟨h0.1, h0.2, h1, ?_⟩
  have hhead : Emits (.int 0xC0 ++ .int 0 ++ .int up ++ .int 1 ++ .int (alp.length : Int))
      ([0xC0] ++ [0] ++ [UInt8.ofNat up.toNat] ++ [1] ++ [UInt8.ofNat (alp.length : Int).toNat]) :=
    ((((Emits.int (i := 0xC0) (by decide) (by decide)).append
      (Emits.int (i := 0) (by decide) (by decide))).append (Emits.int h0.1 h0.2)).append
      (Emits.int (i := 1) (by decide) (by decide))).append (Emits.int (by omega) (by omega))
  unfold Emits at hhead
  rw [hhead] at h
  cases h
  simp [frame]

theorem lineInv_start (m : State) (n : Nat) : LineInv m.written [] (Callers.start m n) [] := by
  have hn : ∀ i : Nat, (Callers.start m n).threads[i]? = some Thread.idle ∨ (Callers.start m n).threads[i]? = none := by
    intro i
    unfold Callers.start
    simp only [List.getElem?_replicate]
    split
    · exact .inl rfl
    · exact .inr rfl
  have hr : ∀ (i : Nat) p c a f t, (Callers.start m n).threads[i]? ≠ some (Thread.run p c a f t) := by
    intro i p c a f t h
    rcases hn i with h' | h' <;> rw [h'] at h <;> cases h
  refine ⟨?_, ?_, rfl, ?_, ?_⟩
  · intro i
    constructor
    · intro h; cases h
    · rintro ⟨r, c, a, f, t, h⟩; exact absurd h (hr _ _ _ _ _ _)
  · intro i p c a f t h; exact absurd h (hr _ _ _ _ _ _)
  · intro i
    refine ⟨[], ?_, rfl⟩
    rcases hn i with h | h <;> rw [h] <;> rfl
  · intro i
    rcases hn i with h | h <;> rw [h] <;> rfl

theorem zip_short {α β : Type} {l : List α} {r : List β} (h : l.length = r.length) (x : List α) :
    (l ++ x).zip r = l.zip r := by
  have := List.zip_append (r₁ := x) (r₂ := ([] : List β)) h
  simpa using this

/-- A thread without a call starts one: the command cannot be serialised, or it can. -/
theorem LineInv.call {base : List UInt8} {es : List CallersEvent} {s : Callers} {order : List Line}
    (h : LineInv base es s order)
    {i : Nat} {c : Command} (timeout t : Int) (hi : s.threads[i]? = some .idle) :
    (∀ e, LineInv base (es ++ [.call i c timeout]) (s.finish i (.raised e)) order) ∧
    (∀ a, bytearray c.iter = .ok a →
      LineInv base (es ++ [.call i c timeout]) (s.goto i (.run .counter c a [] t)) order) := by
  have hnl : s.lock ≠ some i := by
    intro hl
    obtain ⟨r, c', a', f', t', h'⟩ := (h.lock i).1 hl
    rw [hi] at h'
    cases h'
  have hun : ∀ th : Thread, (match s.lock with
      | none => []
      | some j => restOf (s.threads.set i th)[j]?) = s.unwritten := by
    intro th
    unfold Callers.unwritten
    cases hl : s.lock with
    | none => rfl
    | some j =>
      simp only
      rw [getElem?_set' hi, if_neg (by rintro rfl; exact hnl hl)]
  have hc : ∀ j, callsOf j [.call i c timeout] = if i = j then [c] else [] := by
    intro j
    unfold callsOf
    by_cases hj : i = j <;> simp [hj]
  constructor
  · intro e
    have hg := getElem?_set' (x := Thread.idle) hi
    refine ⟨?_, ?_, ?_, ?_, ?_⟩
    · intro j
      show s.lock = some j ↔ ∃ r c a f t, (s.threads.set i _)[j]? = some (Thread.run (.writing r) c a f t)
      rw [hg]
      by_cases hj : j = i
      · rw [if_pos hj, hj, ← hi]; exact h.lock i
      · rw [if_neg hj]; exact h.lock j
    · intro j q c' a' f'' t' hj
      change (s.threads.set i _)[j]? = some _ at hj
      rw [hg] at hj
      by_cases hji : j = i
      · rw [if_pos hji] at hj
        cases hj
      · rw [if_neg hji] at hj
        exact h.built j _ _ _ _ _ hj
    · rw [← h.bytes]
      show _ ++ (match s.lock with
        | none => []
        | some j => restOf (s.threads.set i _)[j]?) = _
      rw [hun]
      rfl
    · intro j
      show ∃ done, callsOf j _ = done ++ inCall (s.threads.set i _)[j]? ∧ _
      rw [hg, resultsOf_finish, callsOf_append, hc]
      obtain ⟨done, h1, h2⟩ := h.calls j
      by_cases hj : j = i
      · subst hj
        rw [hi] at h1
        refine ⟨done ++ [c], ?_, by simp [h2]⟩
        rw [if_pos rfl, if_pos rfl, h1]
        simp [inCall]
      · refine ⟨done, ?_, ?_⟩
        · rw [if_neg hj, if_neg (Ne.symm hj), List.append_nil]; exact h1
        · rw [if_neg (Ne.symm hj)]; exact h2
    · intro j
      show _ = _ ++ inProgress (s.threads.set i _)[j]?
      rw [hg, resultsOf_finish, callsOf_append, hc]
      by_cases hj : j = i
      · subst hj
        obtain ⟨done, h1, h2⟩ := h.calls j
        rw [hi] at h1
        simp only [inCall, List.append_nil] at h1
        have := h.sent j
        rw [hi] at this
        rw [if_pos rfl, if_pos rfl, if_pos rfl, this, h1, List.zip_append h2]
        simp [sentBytes]
      · rw [if_neg hj, if_neg (Ne.symm hj), if_neg (Ne.symm hj), List.append_nil]; exact h.sent j
  · intro a ha
    have hg := getElem?_set' (x := Thread.run .counter c a [] t) hi
    refine ⟨?_, ?_, ?_, ?_, ?_⟩
    · intro j
      show s.lock = some j ↔ ∃ r c a f t, (s.threads.set i _)[j]? = some (Thread.run (.writing r) c a f t)
      rw [hg]
      by_cases hj : j = i
      · subst hj
        rw [if_pos rfl]
        constructor
        · intro hl; exact absurd hl hnl
        · rintro ⟨r, c', a', f'', t', h'⟩
          cases h'
      · rw [if_neg hj]; exact h.lock j
    · intro j q c' a' f'' t' hj
      change (s.threads.set i _)[j]? = some _ at hj
      rw [hg] at hj
      by_cases hji : j = i
      · rw [if_pos hji] at hj
        cases hj
        exact ⟨ha, fun h => absurd rfl h⟩
      · rw [if_neg hji] at hj
        exact h.built j _ _ _ _ _ hj
    · rw [← h.bytes]
      show _ ++ (match s.lock with
        | none => []
        | some j => restOf (s.threads.set i _)[j]?) = _
      rw [hun]
      rfl
    · intro j
      show ∃ done, callsOf j _ = done ++ inCall (s.threads.set i _)[j]? ∧ done.length = (resultsOf j s).length
      rw [hg, callsOf_append, hc]
      obtain ⟨done, h1, h2⟩ := h.calls j
      by_cases hj : j = i
      · subst hj
        rw [hi] at h1
        refine ⟨done, ?_, h2⟩
        rw [if_pos rfl, if_pos rfl, h1]
        simp [inCall]
      · refine ⟨done, ?_, h2⟩
        rw [if_neg hj, if_neg (Ne.symm hj), List.append_nil]; exact h1
    · intro j
      show _ = ((callsOf j _).zip (resultsOf j s)).filterMap _ ++ inProgress (s.threads.set i _)[j]?
      rw [hg, callsOf_append, hc]
      by_cases hj : j = i
      · subst hj
        obtain ⟨done, h1, h2⟩ := h.calls j
        rw [hi] at h1
        simp only [inCall, List.append_nil] at h1
        have := h.sent j
        rw [hi] at this
        rw [if_pos rfl, if_pos rfl, this, h1, zip_short h2]
        rfl
      · rw [if_neg hj, if_neg (Ne.symm hj), List.append_nil]; exact h.sent j

/-- A thread takes the lock. -/
theorem LineInv.acquire {base : List UInt8} {es : List CallersEvent} {s : Callers} {order : List Line}
    (h : LineInv base es s order)
    {i : Nat} {c : Command} {a f : List UInt8} {t : Int}
    (hi : s.threads[i]? = some (.run .acquire c a f t)) (hl : s.lock = none) :
    ∃ order', LineInv base es ({ s with lock := some i }.goto i (.run (.writing f) c a f t)) order' := by
  have hg := getElem?_set' (x := Thread.run (.writing f) c a f t) hi
  obtain ⟨hb, hn⟩ := h.built i _ _ _ _ _ hi
  obtain ⟨n, hf⟩ := hn (by decide)
  have hnw : ∀ (j : Nat) r c a f t, s.threads[j]? ≠ some (.run (.writing r) c a f t) := by
    intro j r c a f t h'
    have := (h.lock j).2 ⟨_, _, _, _, _, h'⟩
    rw [hl] at this
    cases this
  refine ⟨order ++ [⟨i, n, a⟩], ?_, ?_, ?_, ?_, ?_⟩
  · intro j
    show some i = some j ↔ ∃ r c a f t, (s.threads.set i _)[j]? = some (Thread.run (.writing r) c a f t)
    rw [hg]
    by_cases hj : j = i
    · subst hj
      rw [if_pos rfl]
      exact ⟨fun _ => ⟨_, _, _, _, _, rfl⟩, fun _ => rfl⟩
    · rw [if_neg hj]
      constructor
      · intro h'; cases h'; exact absurd rfl hj
      · rintro ⟨_, _, _, _, _, h'⟩; exact absurd h' (hnw _ _ _ _ _ _)
  · intro j q c' a' f'' t' hj
    change (s.threads.set i _)[j]? = some _ at hj
    rw [hg] at hj
    by_cases hji : j = i
    · rw [if_pos hji] at hj
      cases hj
      exact ⟨hb, fun _ => ⟨n, hf⟩⟩
    · rw [if_neg hji] at hj
      exact h.built j _ _ _ _ _ hj
  · show s.inner.written ++ restOf (s.threads.set i _)[i]? = _
    have hw := h.bytes
    rw [unwritten_of_lock hl, List.append_nil] at hw
    rw [hg, if_pos rfl, hw]
    simp [restOf, Line.bytes, hf]
  · intro j
    show ∃ done, callsOf j es = done ++ inCall (s.threads.set i _)[j]? ∧ done.length = (resultsOf j s).length
    rw [hg]
    obtain ⟨done, h1, h2⟩ := h.calls j
    refine ⟨done, ?_, h2⟩
    by_cases hj : j = i
    · subst hj
      rw [if_pos rfl, h1, hi]
      rfl
    · rw [if_neg hj]; exact h1
  · intro j
    show _ = ((callsOf j _).zip (resultsOf j s)).filterMap _ ++ inProgress (s.threads.set i _)[j]?
    rw [hg, List.filter_append, List.map_append, h.sent j]
    by_cases hj : j = i
    · subst hj
      rw [if_pos rfl, hi]
      simp [inProgress]
    · rw [if_neg hj]
      simp [Ne.symm hj]

/-- The thread that holds the lock writes a byte, or gives it back. -/
theorem LineInv.write {base : List UInt8} {es : List CallersEvent} {s : Callers} {order : List Line}
    (h : LineInv base es s order)
    {i : Nat} {c : Command} {a f r : List UInt8} {t : Int}
    (hi : s.threads[i]? = some (.run (.writing r) c a f t)) :
    (∀ b r', r = b :: r' → LineInv base es ({ s with inner.written := s.inner.written ++ [b] }.goto i
      (.run (.writing r') c a f t)) order) ∧
    (r = [] → LineInv base es ({ s with lock := none }.goto i (.run .wait c a f t)) order) := by
  have hl := (h.lock i).2 ⟨_, _, _, _, _, hi⟩
  have hw := h.bytes
  unfold Callers.unwritten at hw
  rw [hl] at hw
  simp only [hi, restOf] at hw
  obtain ⟨hb, hn⟩ := h.built i _ _ _ _ _ hi
  obtain ⟨n, hf⟩ := hn (by simp)
  constructor
  · rintro b r' rfl
    have hg := getElem?_set' (x := Thread.run (.writing r') c a f t) hi
    refine ⟨?_, ?_, ?_, ?_, ?_⟩
    · intro j
      show s.lock = some j ↔ ∃ r c a f t, (s.threads.set i _)[j]? = some (Thread.run (.writing r) c a f t)
      rw [hg]
      by_cases hj : j = i
      · subst hj
        rw [if_pos rfl]
        exact ⟨fun _ => ⟨_, _, _, _, _, rfl⟩, fun _ => hl⟩
      · rw [if_neg hj]; exact h.lock j
    · intro j q c' a' f'' t' hj
      change (s.threads.set i _)[j]? = some _ at hj
      rw [hg] at hj
      by_cases hji : j = i
      · rw [if_pos hji] at hj
        cases hj
        exact ⟨hb, fun _ => ⟨n, hf⟩⟩
      · rw [if_neg hji] at hj
        exact h.built j _ _ _ _ _ hj
    · show (s.inner.written ++ [b]) ++ (match s.lock with
        | none => []
        | some j => restOf (s.threads.set i _)[j]?) = _
      rw [hl]
      simp only
      rw [hg, if_pos rfl, ← hw]
      simp [restOf]
    · intro j
      show ∃ done, callsOf j es = done ++ inCall (s.threads.set i _)[j]? ∧ done.length = (resultsOf j s).length
      rw [hg]
      obtain ⟨done, h1, h2⟩ := h.calls j
      refine ⟨done, ?_, h2⟩
      by_cases hj : j = i
      · subst hj
        rw [if_pos rfl, h1, hi]
        rfl
      · rw [if_neg hj]; exact h1
    · intro j
      show _ = ((callsOf j _).zip (resultsOf j s)).filterMap _ ++ inProgress (s.threads.set i _)[j]?
      rw [hg, h.sent j]
      by_cases hj : j = i
      · subst hj
        rw [if_pos rfl, hi]
        rfl
      · rw [if_neg hj]
  · rintro rfl
    have hg := getElem?_set' (x := Thread.run .wait c a f t) hi
    refine ⟨?_, ?_, ?_, ?_, ?_⟩
    · intro j
      show none = some j ↔ ∃ r c a f t, (s.threads.set i _)[j]? = some (Thread.run (.writing r) c a f t)
      rw [hg]
      by_cases hj : j = i
      · subst hj
        rw [if_pos rfl]
        constructor
        · intro h'; cases h'
        · rintro ⟨_, _, _, _, _, h'⟩; cases h'
      · rw [if_neg hj, ← h.lock j, hl]
        constructor
        · intro h'; cases h'
        · intro h'; cases h'; exact absurd rfl hj
    · intro j q c' a' f'' t' hj
      change (s.threads.set i _)[j]? = some _ at hj
      rw [hg] at hj
      by_cases hji : j = i
      · rw [if_pos hji] at hj
        cases hj
        exact ⟨hb, fun _ => ⟨n, hf⟩⟩
      · rw [if_neg hji] at hj
        exact h.built j _ _ _ _ _ hj
    · rw [← hw]
      rfl
    · intro j
      show ∃ done, callsOf j es = done ++ inCall (s.threads.set i _)[j]? ∧ done.length = (resultsOf j s).length
      rw [hg]
      obtain ⟨done, h1, h2⟩ := h.calls j
      refine ⟨done, ?_, h2⟩
      by_cases hj : j = i
      · subst hj
        rw [if_pos rfl, h1, hi]
        rfl
      · rw [if_neg hj]; exact h1
    · intro j
      show _ = ((callsOf j _).zip (resultsOf j s)).filterMap _ ++ inProgress (s.threads.set i _)[j]?
      rw [hg, h.sent j]
      by_cases hj : j = i
      · subst hj
        rw [if_pos rfl, hi]
        rfl
      · rw [if_neg hj]

theorem inner_written {s s' : State} :
    (∀ b, s.rxStep b = some s' → s'.written = s.written) ∧ (s.readerStep = some s' → s'.written = s.written) ∧
    (s.raiseStep = some s' → s'.written = s.written) ∧ (s.serialErrorStep = some s' → s'.written = s.written) := by
  refine ⟨?_, ?_, ?_, ?_⟩
  · intro b h
    unfold State.rxStep at h
    split at h
    · split at h <;> (cases h; rfl)
    · cases h
  · intro h
    unfold State.readerStep at h
    repeat' split at h
    all_goals first | (cases h; done) | (cases h; rfl)
  · intro h
    unfold State.raiseStep at h
    split at h
    all_goals first | (cases h; done) | (cases h; rfl)
  · intro h
    unfold State.serialErrorStep at h
    split at h
    all_goals first | (cases h; done) | (cases h; rfl)

theorem lineInv_step {base : List UInt8} {es : List CallersEvent} {s s' : Callers} {order : List Line} {e : CallersEvent}
    (h : LineInv base es s order) (hst : s.step e = some s') : ∃ order', LineInv base (es ++ [e]) s' order' := by
  cases e with
  | call i c timeout =>
    simp only [Callers.step, Callers.call] at hst
    split at hst
    · next hc =>
      have hk := h.call timeout (if s.inner.config.skip then 0 else timeout) (c := c) hc.1
      split at hst
      · cases hst; exact ⟨order, hk.1 _⟩
      · next hb => cases hst; exact ⟨order, hk.2 _ hb⟩
    · cases hst
  | step i =>
    have h := h.event (e := .step i) (fun _ => rfl)
    generalize es ++ [.step i] = es at h ⊢
    simp only [Callers.step, Callers.threadStep] at hst
    split at hst
    · cases hst
    · cases hst
    · next place cmd alp fr timeout hi =>
      obtain ⟨hb, hn⟩ := h.built i _ _ _ _ _ hi
      have hs : ∀ o, (∀ e, o ≠ Outcome.raised e) → (sentBytes (cmd, o)).toList = [alp] := by
        intro o ho
        cases o with
        | raised e => exact absurd rfl (ho e)
        | _ => simp [sentBytes, hb, Except.toOption]
      cases place with
      | counter =>
        simp only at hst
        split at hst
        · cases hst
          exact ⟨order, h.finish hi rfl rfl⟩
        · next hd =>
          cases hst
          exact ⟨order, h.goto hi rfl rfl rfl ⟨_, (head_frame hd).2.2.2⟩⟩
      | load => cases hst; exact ⟨order, h.goto hi rfl rfl rfl (hn (by decide))⟩
      | store up =>
        cases hst
        exact ⟨order, (h.inner (x := { s.inner with parser.upCounter := up }) rfl).goto hi rfl rfl rfl (hn (by simp))⟩
      | test =>
        cases hst
        exact ⟨order, h.goto hi rfl (by split <;> rfl) (by split <;> rfl) (hn (by decide))⟩
      | reset =>
        cases hst
        exact ⟨order, (h.inner (x := { s.inner with parser.upCounter := 0 }) rfl).goto hi rfl rfl rfl (hn (by decide))⟩
      | resetList =>
        cases hst
        exact ⟨order, (h.inner (x := { s.inner with responses := s.inner.responses ++ [[]] }) rfl).goto hi rfl rfl
          rfl (hn (by decide))⟩
      | resetTag =>
        cases hst
        exact ⟨order, (h.inner (x := { s.inner with tag := none }) rfl).goto hi rfl rfl rfl (hn (by decide))⟩
      | resetCompleted =>
        cases hst
        exact ⟨order, (h.inner (x := { s.inner with completed := false }) rfl).goto hi rfl (by split <;> rfl)
          (by split <;> rfl) (hn (by decide))⟩
      | check =>
        simp only at hst
        split at hst
        · cases hst; exact ⟨order, h.goto hi rfl rfl rfl (hn (by decide))⟩
        · cases hst; exact ⟨order, h.finish hi rfl rfl⟩
      | setTag =>
        cases hst
        exact ⟨order, (h.inner (x := { s.inner with tag := cmd.tagId }) rfl).goto hi rfl rfl rfl (hn (by decide))⟩
      | acquire =>
        simp only at hst
        split at hst
        · next hl => cases hst; exact h.acquire hi hl
        · cases hst
      | writing r =>
        cases r with
        | cons b r => cases hst; exact ⟨order, (h.write hi).1 b r rfl⟩
        | nil =>
          have hw := (h.write hi).2 rfl
          simp only at hst
          split at hst
          · cases hst
            have hi' : ({ s with lock := none }.goto i (.run .wait cmd alp fr timeout)).threads[i]? =
                some (.run .wait cmd alp fr timeout) := by
              show (s.threads.set i _)[i]? = _
              rw [getElem?_set' hi, if_pos rfl]
            have := hw.finish hi' rfl (o := .empty) (hs _ (by simp))
            refine ⟨order, ?_⟩
            have he : ({ s with lock := none }.goto i (.run .wait cmd alp fr timeout)).finish i .empty =
                { s with lock := none }.finish i .empty := by
              simp [Callers.goto, Callers.finish]
            rwa [he] at this
          · cases hst; exact ⟨order, hw⟩
      | wait =>
        simp only at hst
        split at hst
        · cases hst; exact ⟨order, h.goto hi rfl rfl rfl (hn (by decide))⟩
        · cases hst
      | final =>
        simp only at hst
        split at hst
        · cases hst; exact ⟨order, h.goto hi rfl rfl rfl (hn (by decide))⟩
        · cases hst; exact ⟨order, h.finish hi rfl (hs _ (by simp))⟩
      | ret => cases hst; exact ⟨order, h.finish hi rfl (hs _ (by simp))⟩
  | timeout i =>
    have h := h.event (e := .timeout i) (fun _ => rfl)
    simp only [Callers.step, Callers.timeoutStep] at hst
    split at hst
    · next hi =>
      obtain ⟨hb, hn⟩ := h.built i _ _ _ _ _ hi
      cases hst
      exact ⟨order, h.goto hi rfl rfl rfl (hn (by decide))⟩
    · cases hst
  | rx b =>
    have h := h.event (e := .rx b) (fun _ => rfl)
    simp only [Callers.step] at hst
    obtain ⟨x, hx, rfl⟩ := Option.map_eq_some_iff.1 hst
    exact ⟨order, h.inner (inner_written.1 b hx)⟩
  | reader =>
    have h := h.event (e := .reader) (fun _ => rfl)
    simp only [Callers.step] at hst
    split at hst
    · obtain ⟨x, hx, rfl⟩ := Option.map_eq_some_iff.1 hst
      exact ⟨order, h.inner (inner_written.2.1 hx)⟩
    · cases hst
  | callbackRaises =>
    have h := h.event (e := .callbackRaises) (fun _ => rfl)
    simp only [Callers.step] at hst
    split at hst
    · obtain ⟨x, hx, rfl⟩ := Option.map_eq_some_iff.1 hst
      exact ⟨order, h.inner (inner_written.2.2.1 hx)⟩
    · cases hst
  | serialError =>
    have h := h.event (e := .serialError) (fun _ => rfl)
    simp only [Callers.step] at hst
    obtain ⟨x, hx, rfl⟩ := Option.map_eq_some_iff.1 hst
    exact ⟨order, h.inner (inner_written.2.2.2 hx)⟩

theorem lineInv_run {base : List UInt8} {es : List CallersEvent} : ∀ {past : List CallersEvent} {s s' : Callers} {order : List Line},
    LineInv base past s order → s.run es = some s' → ∃ order', LineInv base (past ++ es) s' order' := by
  induction es with
  | nil => intro past s s' order h hr; cases hr; exact ⟨order, by simpa using h⟩
  | cons e es ih =>
    intro past s s' order h hr
    unfold Callers.run at hr
    cases hst : s.step e with
    | none => rw [hst] at hr; cases hr
    | some s1 =>
      rw [hst] at hr
      obtain ⟨o1, h1⟩ := lineInv_step h hst
      obtain ⟨o2, h2⟩ := ih h1 hr
      exact ⟨o2, by simpa using h2⟩

end Verif.Modem
