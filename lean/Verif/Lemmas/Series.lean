import Verif.Spec.Series
import Verif.Lemmas.Caught

/-! Helper lemmas: commands that are executed one after the other, with tags that are used again. -/

namespace Verif.Modem.Sr

open Verif Verif.Serial

variable {D : Type}

theorem series {config : Config} (hk : config.skip = false) {g : Gateway D} (hg : g.Conforms) {d : D}
    (exec : Update.Exec) {s' : Net D} (cs : List Command) :
    ∀ {n : Nat} {s : Net D} {before : List LateEvent} {qa qb : List Command}, (∀ e ∈ before, Tagged e) →
    (Net.start config d).runLate g before = some s → (Net.start config d).requested g before = qa ++ qb →
    Ct.Caught g d s (qa.filterMap sendable) → (∀ c ∈ cs, ∃ tag bs, Taggable c tag ∧ sendable c = some bs) →
    TagsNew exec n (qb.map Command.tagId) cs → Net.Series (Net.CalledCalmly g) exec n cs s s' →
    ∀ pre c post, cs = pre ++ c :: post → ∃ rs, exec (n + pre.length) c = .ok rs ∧ (rs ≠ [] →
      ∃ tag bs, c.tagId = some tag ∧ sendable c = some bs ∧ g.Reply d ((qa ++ qb ++ pre).filterMap sendable) tag bs rs ∧
        (post = [] → s'.data = (g.replies d ((qa ++ qb ++ pre).filterMap sendable ++ [bs])).1)) := by
  induction cs with
  | nil => intro n s before qa qb _ _ _ _ _ _ _ pre c post h; simp at h
  | cons c cs ih =>
    intro n s before qa qb hp h0 hq hca hcs hnew hser pre x post hx
    obtain ⟨tag, bs, hc, hb⟩ := hcs c (by simp)
    obtain ⟨hnot, hnew⟩ := hnew
    cases hser with
    | cons _ _ _ _ s1 _ h1 h2 =>
    obtain ⟨es, a1, a2, a3, a4⟩ := Ct.called hk hg hc hb hp h0 hq hca (by
      intro q hq' he
      refine hnot (List.mem_map.2 ⟨q, hq', ?_⟩)
      rw [he, hc.2.2]) h1
    have hne : ∀ {rs}, g.Reply d ((qa ++ qb).filterMap sendable) tag bs rs → rs ≠ [] := by
      intro rs hr he
      obtain ⟨l, y, e, -⟩ := hr.final
      rw [he] at e
      simp at e
    cases pre with
    | nil =>
      obtain ⟨rfl, rfl⟩ := List.cons.inj hx
      rcases a4 with a4 | ⟨rs, a4, a5, a6, a7⟩
      · exact ⟨[], a4, fun h => absurd rfl h⟩
      · refine ⟨rs, a4, fun _ => ⟨tag, bs, hc.2.2, hb, by simpa using a5, ?_⟩⟩
        rintro rfl
        cases h2
        simpa using a6
    | cons y pre =>
      obtain ⟨rfl, rfl⟩ := List.cons.inj hx
      have hcs' : ∀ z ∈ pre ++ x :: post, ∃ tag bs, Taggable z tag ∧ sendable z = some bs := fun z hz =>
        hcs z (List.mem_cons_of_mem _ hz)
      rcases a4 with a4 | ⟨rs, a4, a5, a6, a7⟩
      · rw [a4] at hnew
        have := ih (qa := qa) (qb := qb ++ [c]) a2 a1 (by rw [a3, List.append_assoc]) (by
          obtain ⟨es', o, b1, b2, -⟩ := h1
          obtain ⟨done, todo, fs, pr, rs, st⟩ := Lt.stream_reach hk hg hp h0
          exact Ct.caught_run st.ok hca b2) hcs' (by simpa using hnew) h2 pre x post rfl
        simpa [Nat.add_assoc, Nat.add_comm 1] using this
      · have hnew' : TagsNew exec (n + 1) [] (pre ++ x :: post) := by
          rw [a4] at hnew
          cases rs with
          | nil => exact absurd rfl (hne a5)
          | cons z zs => exact hnew
        have := ih (qa := qa ++ qb ++ [c]) (qb := []) a2 a1 (by rw [a3, List.append_nil]) a7 hcs' hnew' h2 pre x post rfl
        simpa [Nat.add_assoc, Nat.add_comm 1] using this

/-- If no call but the last one returns nothing, only the tag of the first command matters. -/
theorem tagsNew_of (exec : Update.Exec) (cs : List Command) :
    ∀ (n : Nat) (open_ : List (Option Int)), (∀ c ∈ cs.head?, c.tagId ∉ open_) →
    (∀ pre c post, cs = pre ++ c :: post → post ≠ [] → exec (n + pre.length) c ≠ .ok []) → TagsNew exec n open_ cs := by
  induction cs with
  | nil => intro n open_ _ _; trivial
  | cons c cs ih =>
    intro n open_ h1 h2
    refine ⟨h1 c (by simp), ?_⟩
    have hrec : ∀ open_, (open_ = [] ∨ cs = []) → TagsNew exec (n + 1) open_ cs := by
      intro open_ ho
      refine ih (n + 1) open_ ?_ ?_
      · intro x hx
        rcases ho with rfl | rfl
        · simp
        · simp at hx
      · intro pre x post hx hpost
        have := h2 (c :: pre) x post (by rw [hx]; rfl) hpost
        simpa [Nat.add_assoc, Nat.add_comm 1] using this
    split
    · rename_i he
      refine hrec _ (.inr ?_)
      by_contra hne
      exact h2 [] c cs rfl hne he
    · exact hrec _ (.inl rfl)

end Verif.Modem.Sr
