import Verif.Lemmas.EveryUpdate
import Verif.Lemmas.EveryConnect
import Verif.Spec.Program

/-! Helper lemmas: series of calls and the update program, begun when everything has been answered. -/

namespace Verif.Modem.Ev

open Verif Verif.Serial Verif.Modem.Lt

variable {D : Type}

theorem calls_ready {config : Config} (hk : config.skip = false) {g : Gateway D} (hg : g.Conforms) {d : D}
    {before : List LateEvent} {s s' : Net D} (hp : ∀ e ∈ before, Tagged e)
    (h0 : (Net.start config d).runLate g before = some s) (hready : handingAlp s.modem.reader = false ∧
      (Ct.Caught g d s (((Net.start config d).requested g before).filterMap sendable) ∨ s.modem.reader.isDead = true)) (exec : Update.Exec) (cs : List Command)
    (hcs : ∀ c ∈ cs, ∃ tag bs, Taggable c tag ∧ sendable c = some bs)
    (hgive : ∀ i (hi : i + 1 < cs.length), exec i cs[i] ≠ .ok [])
    (h : Net.Series (Net.Called g) exec 0 cs s s') :
    let earlier := (Net.start config d).requested g before
    (∀ i (hi : i < cs.length), ∃ rs, exec i cs[i] = .ok rs ∧ (rs = [] ∧ i + 1 = cs.length ∨
      ∃ tag bs, cs[i].tagId = some tag ∧ sendable cs[i] = some bs ∧
        g.Reply d ((earlier ++ cs.take i).filterMap sendable) tag bs rs)) ∧
    (∀ c ∈ cs.getLast?, exec (cs.length - 1) c ≠ .ok [] → s'.data = (g.replies d ((earlier ++ cs).filterMap sendable)).1) := by
  intro earlier
  have hgive' : ∀ pre c post, cs = pre ++ c :: post → post ≠ [] → exec (0 + pre.length) c ≠ .ok [] := by
    rintro pre c post rfl hpost
    have hl := List.length_pos_iff.2 hpost
    have := hgive pre.length (by simp; omega)
    simpa using this
  obtain ⟨hq, hca | hdead⟩ := hready
  · have hser := Ev.every_series hk hg exec cs hp h0 hca hq hcs hgive' h
    have key := Sr.series hk hg exec cs hp h0 (qa := earlier) (qb := []) (by simp [earlier]) hca hcs
      (Sr.tagsNew_of exec cs 0 _ (by simp) hgive') hser
    constructor
    · intro i hi
      obtain ⟨rs, h1, h2⟩ := key (cs.take i) cs[i] (cs.drop (i + 1)) (by simp)
      rw [Nat.zero_add, List.length_take_of_le (Nat.le_of_lt hi)] at h1
      refine ⟨rs, h1, ?_⟩
      by_cases he : rs = []
      · refine .inl ⟨he, ?_⟩
        by_contra hn
        exact hgive i (by omega) (he ▸ h1)
      · obtain ⟨tag, bs, h3, h4, h5, -⟩ := h2 he
        exact .inr ⟨tag, bs, h3, h4, by simpa using h5⟩
    · intro c hc hne
      obtain ⟨pre, rfl⟩ := List.getLast?_eq_some_iff.1 hc
      obtain ⟨rs, h1, h2⟩ := key pre c [] rfl
      simp only [List.length_append, List.length_singleton, Nat.add_sub_cancel, Nat.zero_add] at hne h1
      obtain ⟨tag, bs, -, h4, -, h6⟩ := h2 (by rintro rfl; exact hne h1)
      rw [h6 rfl, List.append_nil, ← List.append_assoc, List.filterMap_append (l' := [c])]
      simp [h4]
  · cases cs with
    | nil => exact ⟨fun i hi => absurd hi (by simp), by simp⟩
    | cons c cs =>
      obtain ⟨tag, bs, hc, hb⟩ := hcs c (by simp)
      cases h with
      | cons _ _ _ _ s1 _ h1 h2 =>
      obtain ⟨es, o, a1, a2, a3, a4⟩ := h1
      rw [Rt.dead_call hk hg hp h0 hdead (by rw [hb]; simp) a1 a2 a3] at a4
      obtain rfl : cs = [] := by
        by_contra hne
        exact hgive 0 (by have := List.length_pos_iff.2 hne; simp; omega) a4
      refine ⟨fun i hi => ?_, fun x hx hne => ?_⟩
      · obtain rfl : i = 0 := by simp at hi; omega
        exact ⟨[], a4, .inl ⟨rfl, rfl⟩⟩
      · obtain rfl : c = x := by simpa using hx
        exact absurd a4 hne

theorem update_ready {config : Config} (hk : config.skip = false) {g : Gateway D} (hg : g.Conforms) {d : D}
    {before : List LateEvent} {s s' : Net D} (hp : ∀ e ∈ before, Tagged e)
    (h0 : (Net.start config d).runLate g before = some s) (hready : handingAlp s.modem.reader = false ∧
      (Ct.Caught g d s (((Net.start config d).requested g before).filterMap sendable) ∨ s.modem.reader.isDead = true)) (rand : Nat → UInt8) (exec : Update.Exec)
    (file : List UInt8) (hfirst : exec 0 (request (rand 0) [.write 199 0 [0]]) ≠ .ok [])
    (h : Net.Series (Net.Called g) exec 0 (Update.update rand exec file).1 s s') :
    let base := ((Net.start config d).requested g before).filterMap sendable
    ∃ k ≤ pieceCount file, (∀ j < k, 239 * j < 2 ^ 30 ∧ g.Stored d base rand file j) ∧
      ((Update.update rand exec file).2 = .done ∧ k = pieceCount file ∧
          s'.data = (g.replies d (base ++ programBytes rand file k)).1 ∨
        (Update.update rand exec file).2 = .failed ∧ k < pieceCount file ∧
          (exec (k + 1) (request (rand (k + 1)) [piece file k]) = .ok [] ∨ ¬ g.Stored d base rand file k) ∨
        (Update.update rand exec file).2 = .raised .valueError ∧ 1073741916 < file.length) := by
  intro base
  have htag := Upl.request_taggable (rand 0) [.write 199 0 [0]]
  have hsend := Upl.first_sendable (rand 0)
  unfold Update.update at h ⊢
  rw [Upd.first_request] at h ⊢
  simp only at h ⊢
  have head : ∀ {cs : List Command}, Net.Series (Net.Called g) exec 0 (request (rand 0) [.write 199 0 [0]] :: cs) s s' →
      ∃ s1, Net.Called g (request (rand 0) [.write 199 0 [0]]) s (exec 0 (request (rand 0) [.write 199 0 [0]])) s1 := by
    intro cs hx
    cases hx with
    | cons _ _ _ _ s1 _ h1 h2 => exact ⟨s1, h1⟩
  obtain ⟨hq, hca | hdead⟩ := hready
  swap
  · exfalso
    have : ∃ s1, Net.Called g (request (rand 0) [.write 199 0 [0]]) s (exec 0 (request (rand 0) [.write 199 0 [0]])) s1 := by
      cases hex : exec 0 (request (rand 0) [.write 199 0 [0]]) <;> simp only [hex] at h <;> rw [← hex] <;> exact head h
    obtain ⟨s1, es, o, a1, a2, a3, a4⟩ := this
    rw [Rt.dead_call hk hg hp h0 hdead (by rw [hsend]; simp) a1 a2 a3] at a4
    exact hfirst a4
  cases hex : exec 0 (request (rand 0) [.write 199 0 [0]]) with
  | error e =>
    exfalso
    simp only [hex] at h
    obtain ⟨s1, h1⟩ := head h
    obtain ⟨es, -, -, -, h2 | ⟨rs, h2, -⟩⟩ := Ct.called (qb := []) hk hg htag hsend hp h0 (by simp) hca (by simp)
      (Ev.every_call hk hg htag hsend hp h0 hca hq h1).1 <;> rw [hex] at h2 <;> cases h2
  | ok rs =>
    simp only [hex] at h ⊢
    obtain ⟨l1, l2⟩ := Ev.loop_commands rand exec _ 1 0 file rfl
    have hser := Ev.every_series hk hg exec _ hp h0 hca hq (by
      intro c hc
      rcases List.mem_cons.1 hc with rfl | hc
      · exact ⟨_, _, htag, hsend⟩
      · exact l1 c hc) (by
      intro pre c post hx hpost
      cases pre with
      | nil =>
        obtain ⟨rfl, -⟩ := List.cons.inj hx
        simpa using hfirst
      | cons y pre =>
        obtain ⟨-, hx⟩ := List.cons.inj hx
        have := l2 pre c post hx hpost
        simpa [Nat.add_assoc, Nat.add_comm 1] using this) h
    cases hser with
    | cons _ _ _ _ s1 _ h1 h2 =>
    obtain ⟨es, a1, a2, a3, a4⟩ := Ct.called (qb := []) hk hg htag hsend hp h0 (by simp) hca (by simp) h1
    obtain ⟨rs', -, -, a5, a6⟩ := a4.resolve_left hfirst
    have hbase : ((Net.start config d).requested g before ++ [request (rand 0) [.write 199 0 [0]]]).filterMap sendable =
        base ++ programBytes rand file 0 := by
      rw [List.filterMap_append]
      simp [base, hsend, programBytes]
    have hdata : s1.data = (g.replies d (base ++ programBytes rand file 0)).1 := by
      rw [a5, ← hbase, List.filterMap_append]
      simp [hsend]
    obtain ⟨k, -, e2, e3, e4⟩ := Upl.loop_late hk hg (base := base) rand exec file 0 (before := before ++ es)
      (qa := (Net.start config d).requested g before ++ [request (rand 0) [.write 199 0 [0]]]) (qb := []) (s := s1)
      (Nat.zero_le _) a2 a1 (by rw [a3]; simp) (by rw [List.append_nil]; exact hbase) (by simpa using a6) (by simp)
      (fun _ => hdata) (by simpa using h2)
    simp only [Nat.mul_zero, List.drop_zero, Nat.zero_add] at e4
    refine ⟨k, e2, fun j hj => e3 j (Nat.zero_le _) hj, ?_⟩
    rcases e4 with ⟨f1, f2, f3⟩ | ⟨f1, f2, f3⟩ | ⟨f1, f2, f3⟩
    · refine .inl ⟨f1, f2, ?_⟩
      rcases Nat.eq_zero_or_pos k with rfl | hpos
      · obtain rfl : file = [] := by
          unfold pieceCount at f2
          exact List.length_eq_zero_iff.1 (by omega)
        rw [Update.loop] at h2
        simp only [dite_true] at h2
        cases h2
        exact hdata
      · exact f3 hpos
    · exact .inr (.inl ⟨f1, f2, f3⟩)
    · refine .inr (.inr ⟨f1, ?_⟩)
      unfold pieceCount at f2
      omega

/-- Without a call the modem is not connected and nothing is handed over. -/
theorem boot_run {g : Gateway D} {es : List LateEvent} : ∀ {s s' : Net D}, s.modem.main = .idle →
    (∀ call, .net (.call call) ∉ es) → s.runLate g es = some s' → Knows s.modem s'.modem := by
  induction es with
  | nil => intro s s' _ _ h; cases h; exact ⟨rfl, rfl, rfl⟩
  | cons e es ih =>
    intro s s' hm hn h
    obtain ⟨s1, h1, h2⟩ := late_cons h
    have hn' : ∀ call, .net (.call call) ∉ es := fun call hx => hn call (by simp [hx])
    rcases late_step h1 with ⟨ev, a1, -, -, a2, -⟩ | ⟨a1, -⟩
    · have key : s1.modem.main = .idle ∧ Knows s.modem s1.modem := by
        cases ev with
        | call c => exact absurd (a2 c rfl) (fun he => hn c (by simp [he]))
        | main => simp [State.step, State.mainStep, hm] at a1
        | timeout => simp [State.step, State.timeoutStep, hm] at a1
        | rx bs => obtain ⟨k1, -, k2, -⟩ := reading_step .idle (.inl ⟨bs, rfl⟩) a1; exact ⟨k1.trans hm, k2⟩
        | reader => obtain ⟨k1, -, k2, -⟩ := reading_step .idle (.inr (.inl rfl)) a1; exact ⟨k1.trans hm, k2⟩
        | callbackRaises => obtain ⟨k1, -, k2, -⟩ := reading_step .idle (.inr (.inr (.inl rfl))) a1; exact ⟨k1.trans hm, k2⟩
        | serialError => obtain ⟨k1, -, k2, -⟩ := reading_step .idle (.inr (.inr (.inr rfl))) a1; exact ⟨k1.trans hm, k2⟩
      exact key.2.trans (ih key.1 hn' h2)
    · rw [← a1]; exact ih (by rw [a1]; exact hm) hn' h2

/-- After a first `connect` that returned True everything has been answered. -/
theorem connected_ready {config : Config} (hk : config.skip = false) {g : Gateway D} (hg : g.Conforms) {d : D}
    {boot : List LateEvent} {s0 s : Net D} {r : UInt8} (hboot : ∀ call, .net (.call call) ∉ boot)
    (h0 : (Net.start config d).runLate g boot = some s0) (h : Net.Connected g r s0 s) :
    ∃ before, (∀ e ∈ before, Tagged e) ∧ (Net.start config d).runLate g before = some s ∧
      (Net.start config d).requested g before = [question r] ∧ handingAlp s.modem.reader = false ∧
      Ct.Caught g d s (((Net.start config d).requested g before).filterMap sendable) := by
  obtain ⟨es, h1, h2, h3⟩ := h
  have hreq : (Net.start config d).requested g boot = [] := Rt.requested_none hboot
  have hca : Ct.Caught g d s0 (((Net.start config d).requested g boot).filterMap sendable) := by
    rw [hreq]; exact Ct.caught_nil h0
  have hq : handingAlp s0.modem.reader = false :=
    quiet_run hk hg (before := []) (by simp) rfl (Ct.caught_nil (es := []) rfl) hboot rfl h0
  have hn : s0.modem.connected = false := (boot_run (s := Net.start config d) rfl hboot h0).connected
  obtain ⟨a1, a2, a3, a4, a5⟩ := every_connect hk hg hn (untagged_free hboot) h0 (.inl hca) hq h1 h2 h3
  refine ⟨_, a1, a2, by rw [a3, hreq]; rfl, a5, ?_⟩
  rw [a3]; exact a4

end Verif.Modem.Ev
