import Mathlib.Data.List.Perm.Subperm
import Verif.Lemmas.Series
import Verif.Props.UpdateLate

/-! C107: commands that are executed one after the other, with tags that are used again. -/

namespace Verif.Modem

open Verif Verif.Serial

variable {D : Type}

/-- C107: commands are executed one after the other, after any calls, with timeouts, late answers, failures of the line and
callbacks that raise, in interleavings in which no hand-over of an ALP message overlaps with the lines of `execute_command` that
prepare for the responses (modem/modem.py 152-157). The tag of each differs from those of the commands since the last call
that returned something; older tags can be used again. Then every call returns exactly the answers of the device to its own
command, given in the state in which the commands before it left the device, or nothing. If the last call returns something,
the device has processed all commands in order. -/
theorem C107_series_partial {config : Config} (hk : config.skip = false) {g : Gateway D} (hg : g.Conforms) {d : D}
    {before : List LateEvent} {s s' : Net D} (hp : ∀ e ∈ before, Tagged e)
    (h0 : (Net.start config d).runLate g before = some s) (exec : Update.Exec) (cs : List Command)
    (hcs : ∀ c ∈ cs, ∃ tag bs, Taggable c tag ∧ sendable c = some bs)
    (hnew : TagsNew exec 0 (((Net.start config d).requested g before).map Command.tagId) cs)
    (h : Net.Series (Net.CalledCalmly g) exec 0 cs s s') :
    let earlier := (Net.start config d).requested g before
    (∀ i (hi : i < cs.length), ∃ rs, exec i cs[i] = .ok rs ∧ (rs = [] ∨
      ∃ tag bs, cs[i].tagId = some tag ∧ sendable cs[i] = some bs ∧
        g.Reply d ((earlier ++ cs.take i).filterMap sendable) tag bs rs)) ∧
    (∀ c ∈ cs.getLast?, exec (cs.length - 1) c ≠ .ok [] → s'.data = (g.replies d ((earlier ++ cs).filterMap sendable)).1) := by
  intro earlier
  have key := Sr.series hk hg exec cs hp h0 (qa := []) (qb := earlier) (by simp [earlier]) (Ct.caught_nil h0) hcs hnew h
  constructor
  · intro i hi
    obtain ⟨rs, h1, h2⟩ := key (cs.take i) cs[i] (cs.drop (i + 1)) (by simp)
    rw [Nat.zero_add, List.length_take_of_le (Nat.le_of_lt hi)] at h1
    refine ⟨rs, h1, ?_⟩
    by_cases he : rs = []
    · exact .inl he
    · obtain ⟨tag, bs, h3, h4, h5, -⟩ := h2 he
      exact .inr ⟨tag, bs, h3, h4, by simpa using h5⟩
  · intro c hc hne
    obtain ⟨pre, rfl⟩ := List.getLast?_eq_some_iff.1 hc
    obtain ⟨rs, h1, h2⟩ := key pre c [] rfl
    simp only [List.length_append, List.length_singleton, Nat.add_sub_cancel, Nat.zero_add] at hne h1
    obtain ⟨tag, bs, -, h4, -, h6⟩ := h2 (by rintro rfl; exact hne h1)
    rw [h6 rfl, List.nil_append, ← List.append_assoc, List.filterMap_append (l' := [c])]
    simp [h4]

/-- The same tag twice: the device refuses the first command and does the second one. -/
theorem same_tag_twice : ∃ s s',
    (Net.start updateConfig (fun _ _ => 9, [true, false])).runLate storing updateConnect = some s ∧
    Net.Series (Net.CalledCalmly storing) (fun n _ => .ok (if n = 0 then [refused 7] else [answered 7 []])) 0
      [request 7 [.write 199 0 [0]], request 7 [.write 200 0 [5, 6]]] s s' ∧ s'.data.1 200 1 = 6 :=
  two_calls (g := storing) (config := updateConfig) (d := (fun _ _ => 9, [true, false])) (before := updateConnect)
    (es := prompt 9) (fs := prompt 9) (o := .list 2) (o' := .list 3) (fun s => s.data.1 200 1 = 6) (by simp [prompt])
    (by simp [prompt]) (by decide +kernel)

example : (∀ e ∈ updateConnect, Tagged e) ∧
    (∀ c ∈ [request 7 [.write 199 0 [0]], request 7 [.write 200 0 [5, 6]]],
      ∃ tag bs, Taggable c tag ∧ sendable c = some bs) ∧
    TagsNew (fun n _ => .ok (if n = 0 then [refused 7] else [answered 7 []])) 0 (((Net.start updateConfig
      (fun _ _ => 9, [true, false])).requested storing updateConnect).map Command.tagId)
      [request 7 [.write 199 0 [0]], request 7 [.write 200 0 [5, 6]]] := by
  refine ⟨by simp [updateConnect, prompt, Tagged], ?_, by decide +kernel, by simp, trivial⟩
  intro c hc
  simp only [List.mem_cons, List.not_mem_nil, or_false] at hc
  rcases hc with rfl | rfl
  · exact ⟨7, [0xB4, 7, 4, 199, 0, 1, 0], Upl.request_taggable _ _, by decide +kernel⟩
  · exact ⟨7, [0xB4, 7, 4, 200, 0, 2, 5, 6], Upl.request_taggable _ _, by decide +kernel⟩

/-- C107: a program that gives up at the first call that returns nothing can use any tags, if only the first one is new. -/
theorem C107_giving_up_partial {config : Config} (hk : config.skip = false) {g : Gateway D} (hg : g.Conforms) {d : D}
    {before : List LateEvent} {s s' : Net D} (hp : ∀ e ∈ before, Tagged e)
    (h0 : (Net.start config d).runLate g before = some s) (exec : Update.Exec) (cs : List Command)
    (hcs : ∀ c ∈ cs, ∃ tag bs, Taggable c tag ∧ sendable c = some bs)
    (hfirst : ∀ c ∈ cs.head?, ∀ q ∈ (Net.start config d).requested g before, q.tagId ≠ c.tagId)
    (hgive : ∀ i (hi : i + 1 < cs.length), exec i cs[i] ≠ .ok [])
    (h : Net.Series (Net.CalledCalmly g) exec 0 cs s s') :
    ∀ i (hi : i < cs.length), ∃ rs, exec i cs[i] = .ok rs ∧ (rs = [] ∧ i + 1 = cs.length ∨
      ∃ tag bs, cs[i].tagId = some tag ∧ sendable cs[i] = some bs ∧
        g.Reply d (((Net.start config d).requested g before ++ cs.take i).filterMap sendable) tag bs rs) := by
  intro i hi
  have hnew := Sr.tagsNew_of exec cs 0 (((Net.start config d).requested g before).map Command.tagId) (by
    intro c hc hm
    obtain ⟨q, hq, he⟩ := List.mem_map.1 hm
    exact hfirst c hc q hq he) (by
    rintro pre c post rfl hpost
    have hl := List.length_pos_iff.2 hpost
    have := hgive pre.length (by simp; omega)
    simpa using this)
  obtain ⟨rs, h1, h2⟩ := (C107_series_partial hk hg hp h0 exec cs hcs hnew h).1 i hi
  refine ⟨rs, h1, h2.imp_left fun he => ⟨he, ?_⟩⟩
  by_contra hn
  exact hgive i (by omega) (he ▸ h1)

/-- In the run of `same_tag_twice`. -/
example : storing.Reply (fun _ _ => 9, [true, false]) (((Net.start updateConfig
      (fun _ _ => 9, [true, false])).requested storing updateConnect ++ [request 7 [.write 199 0 [0]]]).filterMap sendable) 7
      [0xB4, 7, 4, 200, 0, 2, 5, 6] [answered 7 []] := by
  obtain ⟨s, s', h1, h2, -⟩ := same_tag_twice
  obtain ⟨rs, e1, ⟨e2, -⟩ | ⟨tag, bs, e2, e3, e4⟩⟩ := C107_giving_up_partial rfl storing_conforms
    (by simp [updateConnect, prompt, Tagged]) h1 _ _ (by
      intro c hc
      simp only [List.mem_cons, List.not_mem_nil, or_false] at hc
      rcases hc with rfl | rfl
      · exact ⟨7, [0xB4, 7, 4, 199, 0, 1, 0], Upl.request_taggable _ _, by decide +kernel⟩
      · exact ⟨7, [0xB4, 7, 4, 200, 0, 2, 5, 6], Upl.request_taggable _ _, by decide +kernel⟩)
    (by simp only [List.head?_cons, Option.mem_some_iff, forall_eq']; decide +kernel) (by
      intro i hi
      obtain rfl : i = 0 := by simp at hi; omega
      simp) h2 1 (by simp)
  · rw [e2] at e1; simp at e1
  · cases e1
    cases e2
    rw [show bs = [0xB4, 7, 4, 200, 0, 2, 5, 6] from
      Option.some.inj (e3.symm.trans (show sendable (request 7 [.write 200 0 [5, 6]]) = _ by decide +kernel))] at e4
    exact e4

/-- Tags are bytes. -/
theorem tag_byte {c : Command} {tag : Int} {bs : List UInt8} (ht : Taggable c tag) (hs : sendable c = some bs) :
    ∃ b : UInt8, c.tagId = some (b.toNat : Int) := by
  obtain ⟨h5, -⟩ := Gw.sendable_some hs
  obtain ⟨tb, sb, xs, e1, -⟩ := (C22_bytes c bs).1 h5
  obtain ⟨h1, h2, h3⟩ := ht
  simp only [Command.tagBytes, h1, h2, h3, if_true] at e1
  split at e1
  · next hb =>
    refine ⟨UInt8.ofNat tag.toNat, ?_⟩
    rw [h3, show ((UInt8.ofNat tag.toNat).toNat : Int) = tag by simp; omega]
  · cases e1

/-- C107, how far the condition reaches: there are only 256 tags. Of commands none of which, except perhaps the last, is
answered in time, at most 256 can meet it; the 257th has the tag of a command whose answer may still come. -/
theorem C107_limit (exec : Update.Exec) (open_ : List (Option Int)) (cs : List Command)
    (hcs : ∀ c ∈ cs, ∃ tag bs, Taggable c tag ∧ sendable c = some bs)
    (hnone : ∀ i (hi : i + 1 < cs.length), exec i cs[i] = .ok []) (hnew : TagsNew exec 0 open_ cs) : cs.length ≤ 256 := by
  have key : ∀ (cs : List Command) (n : Nat) (open_ : List (Option Int)),
      (∀ i (hi : i + 1 < cs.length), exec (n + i) cs[i] = .ok []) → TagsNew exec n open_ cs →
      (cs.map Command.tagId).Nodup ∧ ∀ c ∈ cs, c.tagId ∉ open_ := by
    intro cs
    induction cs with
    | nil => intro n o _ _; simp
    | cons c cs ih =>
      intro n o hn h
      obtain ⟨h1, h2⟩ := h
      cases cs with
      | nil => simp [h1]
      | cons c' cs =>
        have h0 := hn 0 (by simp)
        simp only [Nat.add_zero, List.getElem_cons_zero] at h0
        rw [h0] at h2
        obtain ⟨i1, i2⟩ := ih (n + 1) (o ++ [c.tagId]) (by
          intro i hi
          have := hn (i + 1) (by simp only [List.length_cons] at hi ⊢; omega)
          rw [show n + (i + 1) = n + 1 + i by omega] at this
          simpa using this) h2
        refine ⟨List.nodup_cons.2 ⟨?_, i1⟩, ?_⟩
        · intro hm
          obtain ⟨x, hx, he⟩ := List.mem_map.1 hm
          exact i2 x hx (by simp [he])
        · intro x hx
          rcases List.mem_cons.1 hx with rfl | hx
          · exact h1
          · exact fun hm => i2 x hx (by simp [hm])
  obtain ⟨hd, -⟩ := key cs 0 open_ (by simpa using hnone) hnew
  let all : List (Option Int) := (List.range 256).map fun n : Nat => some (n : Int)
  have hsub : cs.map Command.tagId ⊆ all := by
    intro x hx
    obtain ⟨c, hc, rfl⟩ := List.mem_map.1 hx
    obtain ⟨tag, bs, h1, h2⟩ := hcs c hc
    obtain ⟨b, hb⟩ := tag_byte h1 h2
    rw [hb]
    exact List.mem_map.2 ⟨b.toNat, List.mem_range.2 b.toNat_lt, rfl⟩
  have := (List.Nodup.subperm hd hsub).length_le
  simpa [all] using this

/-- The limit is reached: 256 commands with different tags, none of them answered. -/
example : (∀ c ∈ (List.range 256).map (fun n => request (UInt8.ofNat n) [.read 0 0 8]), ∃ tag bs, Taggable c tag ∧
      sendable c = some bs) ∧
    TagsNew (fun _ _ => .ok []) 0 [] ((List.range 256).map fun n => request (UInt8.ofNat n) [.read 0 0 8]) := by
  constructor
  · intro c hc
    obtain ⟨n, -, rfl⟩ := List.mem_map.1 hc
    exact ⟨_, _, Upl.request_taggable _ _, Upl.request_sendable (by simp [FileOp.Valid])
      (by simp [requestBytes, FileOp.bytes, encode])⟩
  · have key : ∀ (cs : List Command) n (o : List (Option Int)), (o ++ cs.map Command.tagId).Nodup →
        TagsNew (fun _ _ => .ok []) n o cs := by
      intro cs
      induction cs with
      | nil => intro _ _ _; trivial
      | cons c cs ih =>
        intro n o h
        refine ⟨fun hm => ?_, ih _ _ (by simpa using h)⟩
        exact (List.nodup_append.1 h).2.2 _ hm _ (by simp) rfl
    refine key _ _ _ ?_
    rw [List.nil_append, List.map_map]
    decide +kernel

/-- C107, not provable without a condition on the tags: the first call returns nothing, its late answer is returned by the
second call, which has the same tag, as the answer to its own command. The device refuses this command. -/
theorem C107_refuted : ∃ s s',
    (Net.start updateConfig (fun _ _ => 9, [true, true, false])).runLate storing updateConnect = some s ∧
    Net.Series (Net.CalledCalmly storing) (fun n _ => .ok (if n = 0 then [] else [answered 7 []])) 0
      [request 7 [.write 199 0 [0]], request 7 [.write 200 0 [5, 6]]] s s' ∧
    ¬ storing.Reply (fun _ _ => 9, [true, true, false]) (((Net.start updateConfig
      (fun _ _ => 9, [true, true, false])).requested storing updateConnect ++
      [request 7 [.write 199 0 [0]]]).filterMap sendable) 7 [0xB4, 7, 4, 200, 0, 2, 5, 6] [answered 7 []] := by
  obtain ⟨s, s', h1, h2, -⟩ := two_calls (g := storing) (config := updateConfig)
    (d := (fun _ _ => 9, [true, true, false])) (before := updateConnect) (es := updateSlow) (fs := mistaken)
    (c := request 7 [.write 199 0 [0]]) (c' := request 7 [.write 200 0 [5, 6]]) (o := .empty) (o' := .list 3) (rs := [])
    (rs' := [answered 7 []]) (fun _ => True) (by simp [updateSlow]) (by simp [mistaken]) (by decide +kernel)
  refine ⟨s, s', h1, h2, fun h => ?_⟩
  unfold Gateway.Reply at h
  rw [show (storing.handle (storing.replies (fun _ _ => 9, [true, true, false]) (((Net.start updateConfig
      (fun _ _ => 9, [true, true, false])).requested storing updateConnect ++
      [request 7 [.write 199 0 [0]]]).filterMap sendable)).1 [0xB4, 7, 4, 200, 0, 2, 5, 6]).2 = [[0xE3, 7]] by
    decide +kernel] at h
  exact absurd (meaning_unique h.meaning (refused_answers 7).meaning) (by decide)

end Verif.Modem
