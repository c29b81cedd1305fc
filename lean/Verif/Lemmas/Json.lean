import Verif.Spec.Json

namespace Verif.Json

open Verif

theorem rsplit_dot (m c : Str) (h : '.' ∉ c) : rsplit (m ++ '.' :: c) = [m, c] := by
  have h1 : ∀ a ∈ c.reverse, (a != '.') = true := by
    intro a ha
    simp only [bne_iff_ne, ne_eq]
    rintro rfl
    exact h (List.mem_reverse.1 ha)
  unfold rsplit
  rw [List.reverse_append, List.reverse_cons, List.append_assoc, List.singleton_append,
    List.takeWhile_append_of_pos h1, List.dropWhile_append_of_pos h1]
  simp

theorem find_key {α β : Type} [BEq α] [LawfulBEq α] {l : List (α × β)} (h : (l.map Prod.fst).Nodup)
    {a : α} {b : β} (hm : (a, b) ∈ l) : l.find? (fun d => d.1 == a) = some (a, b) := by
  induction l with
  | nil => cases hm
  | cons e l ih =>
    rw [List.map_cons, List.nodup_cons] at h
    rcases List.mem_cons.1 hm with rfl | hm
    · simp
    · have : (e.1 == a) = false := by
        rw [beq_eq_false_iff_ne]
        rintro rfl
        exact h.1 (List.mem_map.2 ⟨_, hm, rfl⟩)
      rw [List.find?_cons, this]
      exact ih h.2 hm

theorem find_class {world : List EnumClass} (h : (world.map fun c => (c.module, c.name)).Nodup) {c : EnumClass}
    (hc : c ∈ world) : (world.find? fun d => d.module == c.module && d.name == c.name) = some c := by
  induction world with
  | nil => cases hc
  | cons e l ih =>
    rw [List.map_cons, List.nodup_cons] at h
    rcases List.mem_cons.1 hc with rfl | hc
    · simp
    · have : (e.module == c.module && e.name == c.name) = false := by
        rw [Bool.eq_false_iff]
        intro hb
        simp only [Bool.and_eq_true, beq_iff_eq] at hb
        exact h.1 (List.mem_map.2 ⟨c, hc, by rw [hb.1, hb.2]⟩)
      rw [List.find?_cons, this]
      exact ih h.2 hc

theorem member_spec {c : EnumClass} {x : Int} {m : Member} (h : c.member x = some m) :
    m.cls = (c.module, c.name) ∧ m.value = x ∧ (m.name, m.value) ∈ c.defs := by
  unfold EnumClass.member at h
  obtain ⟨d, hd, rfl⟩ := Option.map_eq_some_iff.1 h
  have h1 := List.find?_some hd
  simp only [beq_iff_eq] at h1
  exact ⟨rfl, h1, List.mem_of_find?_eq_some hd⟩

theorem getitem_member {c : EnumClass} (hd : (c.defs.map Prod.fst).Nodup) {m : Member} (hm : m ∈ c.members) :
    c.getitem m.name = .ok m := by
  obtain ⟨d, -, hm⟩ := List.mem_filterMap.1 hm
  obtain ⟨-, h2, h3⟩ := member_spec hm
  unfold EnumClass.getitem
  rw [find_key hd h3]
  simp only [h2, hm]

theorem members_cls {c : EnumClass} {m : Member} (hm : m ∈ c.members) : m.cls = (c.module, c.name) := by
  obtain ⟨d, -, hm⟩ := List.mem_filterMap.1 hm
  exact (member_spec hm).1

theorem get_flatten (m : Member) :
    (flatten m (header m)).get "py/object" = .ok (m.cls.1 ++ '.' :: m.cls.2) ∧
      (flatten m (header m)).get "value" = .ok m.name := by
  constructor <;> simp [flatten, header, Data.set, Data.get]

/-! ### as_dict -/

/-- An item of a list. -/
def item : Val → Val
  | .obj c a => asDict c a
  | v => v

/-- An attribute. -/
def shown : Val → Val
  | .list l => .list (items l)
  | .obj c a => asDict c a
  | v => v

def isCls : Val → Bool
  | .cls _ => true
  | _ => false

theorem items_eq (l : List Val) : items l = l.map item := by
  induction l with
  | nil => simp [items]
  | cons v l ih => cases v <;> simp [items, item, ih]

theorem fill_cons (d : List (String × Val)) (k : String) (v : Val) (attrs : List (String × Val)) :
    fill d ((k, v) :: attrs) = fill (if isCls v then d else setKey d k (shown v)) attrs := by
  cases v <;> simp [fill, isCls, shown]

theorem setKey_new {d : List (String × Val)} {k : String} (v : Val) (h : k ∉ d.map Prod.fst) :
    setKey d k v = d ++ [(k, v)] := by
  induction d with
  | nil => rfl
  | cons e d ih =>
    simp only [List.map_cons, List.mem_cons, not_or] at h
    unfold setKey
    rw [if_neg (fun h' => h.1 h'.symm), ih h.2]
    rfl

theorem fill_eq {attrs : List (String × Val)} (h : (attrs.map Prod.fst).Nodup) :
    ∀ d : List (String × Val), (∀ k ∈ attrs.map Prod.fst, k ∉ d.map Prod.fst) →
      fill d attrs = d ++ (attrs.filter fun e => !isCls e.2).map fun e => (e.1, shown e.2) := by
  induction attrs with
  | nil => intro d _; simp [fill]
  | cons e attrs ih =>
    obtain ⟨k, v⟩ := e
    intro d hd
    rw [List.map_cons, List.nodup_cons] at h
    rw [fill_cons]
    cases hv : isCls v with
    | true =>
      rw [if_pos rfl, ih h.2 d fun k hk => hd k (List.mem_cons_of_mem _ hk)]
      simp [hv]
    | false =>
      rw [if_neg (by decide), setKey_new _ (hd k List.mem_cons_self), ih h.2]
      · simp [hv]
      · intro k' hk'
        simp only [List.map_append, List.map_cons, List.map_nil, List.mem_append, List.mem_singleton, not_or]
        refine ⟨hd k' (List.mem_cons_of_mem _ hk'), ?_⟩
        rintro rfl
        exact h.1 hk'

theorem asDict_eq (c : String) {attrs : List (String × Val)} (h : (attrs.map Prod.fst).Nodup)
    (hc : "__CLASS__" ∉ attrs.map Prod.fst) :
    asDict c attrs = .dict (("__CLASS__", .str c) ::
      (attrs.filter fun e => !isCls e.2).map fun e => (e.1, shown e.2)) := by
  rw [asDict, fill_eq h]
  · rfl
  · intro k hk
    simp only [List.map_cons, List.map_nil, List.mem_singleton]
    rintro rfl
    exact hc hk

theorem setKey_mem {d : List (String × Val)} {k : String} {v : Val} {e : String × Val}
    (h : e ∈ setKey d k v) : e ∈ d ∨ e = (k, v) := by
  induction d with
  | nil => exact .inr (List.mem_singleton.1 h)
  | cons x d ih =>
    unfold setKey at h
    split at h
    · rcases List.mem_cons.1 h with h | h
      · exact .inr h
      · exact .inl (List.mem_cons_of_mem _ h)
    · rcases List.mem_cons.1 h with h | h
      · exact .inl (h ▸ List.mem_cons_self)
      · rcases ih h with h | h
        · exact .inl (List.mem_cons_of_mem _ h)
        · exact .inr h

theorem fill_mem {attrs : List (String × Val)} : ∀ {d : List (String × Val)} {e : String × Val},
    e ∈ fill d attrs → e ∈ d ∨ ∃ a ∈ attrs, isCls a.2 = false ∧ e.2 = shown a.2 := by
  induction attrs with
  | nil => intro d e h; exact .inl (by simpa [fill] using h)
  | cons x attrs ih =>
    obtain ⟨k, v⟩ := x
    intro d e h
    rw [fill_cons] at h
    rcases ih h with h | ⟨a, ha, h1, h2⟩
    · by_cases hv : isCls v = true
      · rw [if_pos hv] at h
        exact .inl h
      · rw [if_neg hv] at h
        rcases setKey_mem h with h | rfl
        · exact .inl h
        · exact .inr ⟨(k, v), List.mem_cons_self, by simpa using hv, rfl⟩
    · exact .inr ⟨a, List.mem_cons_of_mem _ ha, h1, h2⟩

theorem Plain.shown {v : Val} (h : Plain v) : Plain (shown v) := by
  cases h with
  | str | other => constructor
  | dict es h => exact .dict es h
  | list l h =>
    refine .list _ fun v hv => ?_
    rw [items_eq] at hv
    obtain ⟨u, hu, rfl⟩ := List.mem_map.1 hv
    have := h u hu
    cases this <;> (first | exact h _ hu | (constructor <;> assumption))

theorem Reachable.shown {v : Val} (h : Reachable v) (hc : isCls v = false) : Plain (shown v) := by
  induction h with
  | plain v h => exact h.shown
  | cls => cases hc
  | obj c attrs _ ih =>
    unfold Json.shown
    simp only
    rw [asDict]
    refine .dict _ fun e he => ?_
    rcases fill_mem he with h | ⟨a, ha, h1, h2⟩
    · rw [List.mem_singleton.1 h]
      constructor
    · rw [h2]
      exact ih a ha h1
  | list l h h' ih =>
    refine .list _ fun v hv => ?_
    rw [items_eq] at hv
    obtain ⟨u, hu, rfl⟩ := List.mem_map.1 hv
    rcases h' u hu with hp | ⟨c, a, rfl⟩
    · cases hp <;> (first | (constructor <;> assumption) | constructor)
    · exact ih _ hu rfl

theorem item_inj {v w : Val} (hv : Structured v) (hw : Structured w)
    (ih : shown v = shown w → v = w) (h : item v = item w) : v = w := by
  cases hv <;> cases hw <;> first | exact h | exact ih h | (simp only [item, asDict] at h; cases h)

theorem Structured.inj {v w : Val} (hv : Structured v) (hw : Structured w) (h : shown v = shown w) : v = w := by
  induction hv generalizing w with
  | str s => cases hw <;> first | exact h | (simp only [shown, asDict] at h; cases h)
  | other s => cases hw <;> first | exact h | (simp only [shown, asDict] at h; cases h)
  | list l hl ih =>
    cases hw with
    | str | other => simp only [shown] at h; cases h
    | obj c a => simp only [shown, asDict] at h; cases h
    | list l' hl' =>
      simp only [shown, Val.list.injEq, items_eq] at h
      congr 1
      induction l generalizing l' with
      | nil =>
        cases l' with
        | nil => rfl
        | cons => simp at h
      | cons v l ihl =>
        cases l' with
        | nil => simp at h
        | cons w l' =>
          simp only [List.map_cons, List.cons.injEq] at h
          have h1 := item_inj (hl v List.mem_cons_self) (hl' w List.mem_cons_self)
            (ih v List.mem_cons_self (hl' w List.mem_cons_self)) h.1
          rw [h1, ihl (fun v hv => hl v (List.mem_cons_of_mem _ hv))
            (fun v hv => ih v (List.mem_cons_of_mem _ hv)) l'
            (fun v hv => hl' v (List.mem_cons_of_mem _ hv)) h.2]
  | obj c attrs hn hk hs ih =>
    cases hw with
    | str | other => simp only [shown, asDict] at h; cases h
    | list => simp only [shown, asDict] at h; cases h
    | obj c' attrs' hn' hk' hs' =>
      have nocls : ∀ {as : List (String × Val)}, (∀ e ∈ as, Structured e.2) →
          as.filter (fun e => !isCls e.2) = as := by
        intro as has
        rw [List.filter_eq_self]
        intro e he
        have := has e he
        revert this
        generalize e.2 = x
        intro hx
        cases hx <;> rfl
      simp only [shown] at h
      rw [asDict_eq c hn hk, asDict_eq c' hn' hk', nocls hs, nocls hs'] at h
      simp only [Val.dict.injEq, List.cons.injEq, Prod.mk.injEq, Val.str.injEq, true_and] at h
      obtain ⟨rfl, h⟩ := h
      congr 1
      clear hn hk hn' hk'
      induction attrs generalizing attrs' with
      | nil =>
        cases attrs' with
        | nil => rfl
        | cons => simp at h
      | cons e l ihl =>
        cases attrs' with
        | nil => simp at h
        | cons e' l' =>
          simp only [List.map_cons, List.cons.injEq, Prod.mk.injEq] at h
          have h1 := ih e List.mem_cons_self (hs' e' List.mem_cons_self) h.1.2
          rw [show e = e' from Prod.ext h.1.1 h1, ihl (fun v hv => hs v (List.mem_cons_of_mem _ hv))
            (fun v hv => ih v (List.mem_cons_of_mem _ hv)) l'
            (fun v hv => hs' v (List.mem_cons_of_mem _ hv)) h.2]

end Verif.Json
