import Verif.Lemmas.Json

/-! Property theorems C49 (enum JSON) and C56 (`as_dict`). -/

namespace Verif.Json

open Verif

/-! ### C49: enum JSON -/

/-- C49 for any importable enum classes: restoring the flattened form of a member gives the same member. -/
theorem C49_round_trip {world : List EnumClass} (hw : Importable world) {c : EnumClass} (hc : c ∈ world)
    {m : Member} (hm : m ∈ c.members) : restore world (flatten m (header m)) = .ok m := by
  obtain ⟨h1, h2⟩ := get_flatten m
  unfold restore
  rw [h1, h2]
  simp only [members_cls hm, bind, Except.bind]
  rw [rsplit_dot _ _ (hw.names c hc)]
  simp only [find_class hw.classes hc]
  exact getitem_member (hw.defs c hc) hm

/-- The enum classes of the library are importable. -/
theorem library_importable : Importable library where
  classes := by decide +kernel
  names := by decide +kernel
  defs := by decide +kernel

/-- C49 for all members of all enums of the library. -/
theorem C49_library {c : EnumClass} (hc : c ∈ library) {m : Member} (hm : m ∈ c.members) :
    restore library (flatten m (header m)) = .ok m :=
  C49_round_trip library_importable hc hm

example : ∃ c ∈ library, ∃ m ∈ c.members, m.name = "D7ASP".toList ∧ m.value = 0xD7 := by decide +kernel

/-- All names of all enums of the library are members of their own: none is an alias. -/
theorem C49_no_alias {c : EnumClass} (hc : c ∈ library) :
    c.members = c.defs.map fun d => ⟨(c.module, c.name), d.1, d.2⟩ := by
  revert c
  decide +kernel

example : library.length = 18 ∧ ∀ c ∈ library, c.defs ≠ [] := by decide +kernel

/-- Different members have different flattened forms. -/
theorem C49_injective {world : List EnumClass} (hw : Importable world) {c c' : EnumClass} (hc : c ∈ world)
    (hc' : c' ∈ world) {m m' : Member} (hm : m ∈ c.members) (hm' : m' ∈ c'.members)
    (h : flatten m (header m) = flatten m' (header m')) : m = m' := by
  have h1 := C49_round_trip hw hc hm
  rw [h, C49_round_trip hw hc' hm'] at h1
  exact (Except.ok.inj h1).symm

/-- An alias is restored as the member it stands for. -/
example : (restore [enumClass "a.b" "E" [("ONE", 1), ("UN", 1)]]
    [("py/object".toList, "a.b.E".toList), ("value".toList, "UN".toList)]).toOption =
    some ⟨("a.b".toList, "E".toList), "ONE".toList, 1⟩ := by decide +kernel

/-- A name that the class does not have is not restored: KeyError. -/
theorem C49_unknown_name {world : List EnumClass} (hw : Importable world) {c : EnumClass} (hc : c ∈ world)
    {name : Str} (hn : name ∉ c.defs.map Prod.fst) :
    restore world [("py/object".toList, c.module ++ '.' :: c.name), ("value".toList, name)] =
      .error .keyError := by
  have h1 := get_flatten ⟨(c.module, c.name), name, 0⟩
  have e : flatten ⟨(c.module, c.name), name, 0⟩ (header ⟨(c.module, c.name), name, 0⟩) =
      [("py/object".toList, c.module ++ '.' :: c.name), ("value".toList, name)] := by
    simp [flatten, header, Data.set]
  rw [e] at h1
  unfold restore
  rw [h1.1, h1.2]
  simp only [bind, Except.bind]
  rw [rsplit_dot _ _ (hw.names c hc)]
  simp only [find_class hw.classes hc]
  unfold EnumClass.getitem
  rw [List.find?_eq_none.2]
  intro d hd
  simp only [beq_iff_eq]
  rintro rfl
  exact hn (List.mem_map_of_mem hd)

example : ∃ c ∈ library, c.name = "RetryMode".toList ∧ "RETRY_MODE_YES".toList ∉ c.defs.map Prod.fst := by
  decide +kernel

/-! ### C56: as_dict -/

/-- C56. For an object whose attributes have different names, none of them `__CLASS__`: the dictionary gives the class
name under `__CLASS__`; an attribute holding an object under its name as that object's dictionary; one
holding a list as a list of the same length with the objects in it replaced by their dictionaries; one
holding a class not at all; any other unchanged; and nothing else. -/
theorem C56_entries (c : String) {attrs : List (String × Val)} (h : (attrs.map Prod.fst).Nodup)
    (hc : "__CLASS__" ∉ attrs.map Prod.fst) :
    (asDict c attrs).get "__CLASS__" = some (.str c) ∧
    (∀ k, k ≠ "__CLASS__" → k ∉ attrs.map Prod.fst → (asDict c attrs).get k = none) ∧
    ∀ k v, (k, v) ∈ attrs →
      match v with
      | .cls _ => (asDict c attrs).get k = none
      | .obj c' attrs' => (asDict c attrs).get k = some (asDict c' attrs')
      | .list l => ∃ l', (asDict c attrs).get k = some (.list l') ∧ l'.length = l.length ∧
          ∀ (i : Nat) (u : Val), l[i]? = some u →
            match u with
            | .obj c' attrs' => l'[i]? = some (asDict c' attrs')
            | u => l'[i]? = some u
      | v => (asDict c attrs).get k = some v := by
  have hget : ∀ k, k ≠ "__CLASS__" → (asDict c attrs).get k =
      (((attrs.filter fun e => !isCls e.2).map fun e => (e.1, shown e.2)).find?
        fun e => e.1 = k).map Prod.snd := by
    intro k hk
    rw [asDict_eq c h hc]
    simp only [Val.get, List.find?_cons]
    rw [show (decide ("__CLASS__" = k)) = false from by simpa using fun h => hk h.symm]
  have hnone : ∀ k, k ≠ "__CLASS__" → (∀ v, (k, v) ∈ attrs → isCls v = true) →
      (asDict c attrs).get k = none := by
    intro k hk hv
    rw [hget k hk, Option.map_eq_none_iff, List.find?_eq_none]
    intro e he
    obtain ⟨a, ha, rfl⟩ := List.mem_map.1 he
    obtain ⟨h1, h2⟩ := List.mem_filter.1 ha
    simp only [decide_eq_true_eq]
    rintro rfl
    rw [hv a.2 h1] at h2
    cases h2
  have hsome : ∀ k v, (k, v) ∈ attrs → isCls v = false → (asDict c attrs).get k = some (shown v) := by
    intro k v hm hv
    have hk : k ≠ "__CLASS__" := by
      rintro rfl
      exact hc (List.mem_map_of_mem hm)
    rw [hget k hk]
    have hm' : (k, shown v) ∈ (attrs.filter fun e => !isCls e.2).map fun e => (e.1, shown e.2) :=
      List.mem_map.2 ⟨(k, v), List.mem_filter.2 ⟨hm, by simp [hv]⟩, rfl⟩
    have hn : (((attrs.filter fun e => !isCls e.2).map fun e => (e.1, shown e.2)).map Prod.fst).Nodup := by
      rw [List.map_map]
      exact (List.Sublist.map Prod.fst (List.filter_sublist (p := fun e => !isCls e.2) (l := attrs))).nodup h
    have := find_key hn hm'
    rw [show (fun e : String × Val => decide (e.1 = k)) = fun e => e.1 == k from funext fun e => by
      rw [Bool.eq_iff_iff]; simp, this]
    rfl
  refine ⟨by rw [asDict_eq c h hc]; rfl, fun k hk hm => hnone k hk fun v hv =>
    absurd (List.mem_map_of_mem (f := Prod.fst) hv) hm, fun k v hm => ?_⟩
  cases v with
  | cls n =>
    refine hnone k (by rintro rfl; exact hc (List.mem_map_of_mem (f := Prod.fst) hm)) fun v hv => ?_
    have h1 := find_key h hm
    rw [find_key h hv] at h1
    simp only [Option.some.injEq, Prod.mk.injEq, true_and] at h1
    rw [h1]
    rfl
  | str s => exact hsome k _ hm rfl
  | other s => exact hsome k _ hm rfl
  | dict s => exact hsome k _ hm rfl
  | obj c' a => exact hsome k _ hm rfl
  | list l =>
    refine ⟨items l, hsome k _ hm rfl, by simp [items_eq], fun i u hu => ?_⟩
    have : (items l)[i]? = some (item u) := by rw [items_eq, List.getElem?_map, hu]; rfl
    cases u <;> exact this

example : (asDict "Command" [("tag_id", .other 7), ("Types", .cls "Types"),
      ("actions", .list [.obj "RegularAction" [("group", .other 1)], .other 2])]).get "actions" =
    some (.list [.dict [("__CLASS__", .str "RegularAction"), ("group", .other 1)], .other 2]) := by
  simp [asDict, fill, setKey, items, Val.get]

/-- The result is plain data at every depth, if no `Validatable` hides in a list in a list or in a dictionary. -/
theorem C56_plain {c : String} {attrs : List (String × Val)} (h : Reachable (.obj c attrs)) :
    Plain (asDict c attrs) :=
  h.shown rfl

example : Reachable (.obj "Command" [("tag_id", .other 7), ("Types", .cls "Types"),
    ("actions", .list [.obj "RegularAction" [("group", .other 1)], .other 2])]) := by
  refine .obj _ _ fun e he => ?_
  simp only [List.mem_cons, List.not_mem_nil, or_false] at he
  rcases he with rfl | rfl | rfl
  · exact .plain _ (.other 7)
  · exact .cls _
  · refine .list _ (fun v hv => ?_) (fun v hv => ?_) <;>
      simp only [List.mem_cons, List.not_mem_nil, or_false] at hv <;> rcases hv with rfl | rfl
    · refine .obj _ _ fun e he => ?_
      rw [List.mem_singleton.1 he]
      exact .plain _ (.other 1)
    · exact .plain _ (.other 2)
    · exact .inr ⟨_, _, rfl⟩
    · exact .inl (.other 2)

/-- In a list in a list an object stays an object. -/
theorem C56_nested_list_kept (c c' k : String) (attrs : List (String × Val)) (hk : k ≠ "__CLASS__") :
    (asDict c [(k, .list [.list [.obj c' attrs]])]).get k = some (.list [.list [.obj c' attrs]]) ∧
      ¬ Plain (.list [.list [.obj c' attrs]]) := by
  constructor
  · have := hk.symm
    simp [asDict, fill, setKey, items, Val.get, this]
  · intro h
    cases h with
    | list _ h =>
      cases h _ List.mem_cons_self with
      | list _ h => cases h _ List.mem_cons_self

example : (asDict "Command" [("actions", .list [.list [.obj "RegularAction" [("group", .other 1)]]])]).get "actions" =
    some (.list [.list [.obj "RegularAction" [("group", .other 1)]]]) :=
  (C56_nested_list_kept "Command" "RegularAction" "actions" [("group", .other 1)] (by decide)).1

/-- Nothing is lost: objects with the same dictionary have the same class and the same attributes, at every
depth. -/
theorem C56_injective {c c' : String} {attrs attrs' : List (String × Val)} (h : Structured (.obj c attrs))
    (h' : Structured (.obj c' attrs')) (he : asDict c attrs = asDict c' attrs') : c = c' ∧ attrs = attrs' := by
  have := h.inj h' he
  simpa using this

example : Structured (.obj "Action" [("op", .obj "Op" [("code", .other 1)]), ("name", .str "x")]) := by
  refine .obj _ _ (by decide) (by decide) fun e he => ?_
  simp only [List.mem_cons, List.not_mem_nil, or_false] at he
  rcases he with rfl | rfl
  · refine .obj _ _ (by decide) (by decide) fun e he => ?_
    rw [List.mem_singleton.1 he]
    exact .other 1
  · exact .str _

end Verif.Json
